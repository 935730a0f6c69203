import Verif.Gen.Structs
import Verif.Gen.Enums
/-
GENERATED by tools/gen_structs.py from the struct tags of /repo -- do not edit.

For every Go struct: its schema (`fields`/`ty`), and the conversions between the Lean
structure and the values of the schema; converting there and back is the identity.
-/
namespace Ofx

theorem optInv {α β : Type} {f : α → β} {g : β → α} (h : ∀ y, f (g y) = y) (o : Option β) :
    Option.map f (Option.map g o) = o := by
  cases o <;> simp [h]
theorem listInv {α β : Type} {f : α → β} {g : β → α} (h : ∀ y, f (g y) = y) (l : List β) :
    List.map f (List.map g l) = l := by
  induction l <;> simp_all

/-- common.go 264-269 -/
def Status.fields : Fields :=
  .field [] "CODE".toList false (.leaf .int) <|
  .field [] "SEVERITY".toList false (.leaf .str) <|
  .field [] "MESSAGE".toList true (.leaf .str) <|
  .nil
/-- common.go 264-269: schema. -/
def Status.ty : Ty := .struct (.tag "STATUS".toList) Status.fields
/-- common.go 264-269: conversion to a value of the schema. -/
def Status.toDen (x : Status) : Status.ty.Den :=
  ((), x.Code, x.Severity, x.Message, ())
/-- common.go 264-269: conversion from a value of the schema. -/
def Status.ofDen (d : Status.ty.Den) : Status :=
  ⟨d.2.1, d.2.2.1, d.2.2.2.1⟩
@[simp] theorem Status.ofDen_toDen (x : Status) : Status.ofDen (Status.toDen x) = x := by
  simp [Status.toDen, Status.ofDen]
theorem Status.toDen_ofDen (d : Status.ty.Den) : Status.toDen (Status.ofDen d) = d :=
  Prod.ext rfl (Prod.ext rfl (Prod.ext rfl (Prod.ext rfl (rfl))))

/-- common.go 308-315 -/
def BankAcct.fields : Fields :=
  .field [] "BANKID".toList false (.leaf .str) <|
  .field [] "BRANCHID".toList true (.leaf .str) <|
  .field [] "ACCTID".toList false (.leaf .str) <|
  .field [] "ACCTTYPE".toList false (.leaf (.enum enumAcctType)) <|
  .field [] "ACCTKEY".toList true (.leaf .str) <|
  .nil
/-- common.go 308-315: schema. -/
def BankAcct.ty : Ty := .struct .free BankAcct.fields
/-- common.go 308-315: conversion to a value of the schema. -/
def BankAcct.toDen (x : BankAcct) : BankAcct.ty.Den :=
  (x.XMLName, x.BankID, x.BranchID, x.AcctID, x.AcctType, x.AcctKey, ())
/-- common.go 308-315: conversion from a value of the schema. -/
def BankAcct.ofDen (d : BankAcct.ty.Den) : BankAcct :=
  ⟨d.1, d.2.1, d.2.2.1, d.2.2.2.1, d.2.2.2.2.1, d.2.2.2.2.2.1⟩
@[simp] theorem BankAcct.ofDen_toDen (x : BankAcct) : BankAcct.ofDen (BankAcct.toDen x) = x := by
  simp [BankAcct.toDen, BankAcct.ofDen]
theorem BankAcct.toDen_ofDen (d : BankAcct.ty.Den) : BankAcct.toDen (BankAcct.ofDen d) = d :=
  Prod.ext rfl (Prod.ext rfl (Prod.ext rfl (Prod.ext rfl (Prod.ext rfl (Prod.ext rfl (rfl))))))

/-- common.go 332-336 -/
def CCAcct.fields : Fields :=
  .field [] "ACCTID".toList false (.leaf .str) <|
  .field [] "ACCTKEY".toList true (.leaf .str) <|
  .nil
/-- common.go 332-336: schema. -/
def CCAcct.ty : Ty := .struct .free CCAcct.fields
/-- common.go 332-336: conversion to a value of the schema. -/
def CCAcct.toDen (x : CCAcct) : CCAcct.ty.Den :=
  (x.XMLName, x.AcctID, x.AcctKey, ())
/-- common.go 332-336: conversion from a value of the schema. -/
def CCAcct.ofDen (d : CCAcct.ty.Den) : CCAcct :=
  ⟨d.1, d.2.1, d.2.2.1⟩
@[simp] theorem CCAcct.ofDen_toDen (x : CCAcct) : CCAcct.ofDen (CCAcct.toDen x) = x := by
  simp [CCAcct.toDen, CCAcct.ofDen]
theorem CCAcct.toDen_ofDen (d : CCAcct.ty.Den) : CCAcct.toDen (CCAcct.ofDen d) = d :=
  Prod.ext rfl (Prod.ext rfl (Prod.ext rfl (rfl)))

/-- common.go 347-351 -/
def InvAcct.fields : Fields :=
  .field [] "BROKERID".toList false (.leaf .str) <|
  .field [] "ACCTID".toList false (.leaf .str) <|
  .nil
/-- common.go 347-351: schema. -/
def InvAcct.ty : Ty := .struct .free InvAcct.fields
/-- common.go 347-351: conversion to a value of the schema. -/
def InvAcct.toDen (x : InvAcct) : InvAcct.ty.Den :=
  (x.XMLName, x.BrokerID, x.AcctID, ())
/-- common.go 347-351: conversion from a value of the schema. -/
def InvAcct.ofDen (d : InvAcct.ty.Den) : InvAcct :=
  ⟨d.1, d.2.1, d.2.2.1⟩
@[simp] theorem InvAcct.ofDen_toDen (x : InvAcct) : InvAcct.ofDen (InvAcct.toDen x) = x := by
  simp [InvAcct.toDen, InvAcct.ofDen]
theorem InvAcct.toDen_ofDen (d : InvAcct.ty.Den) : InvAcct.toDen (InvAcct.ofDen d) = d :=
  Prod.ext rfl (Prod.ext rfl (Prod.ext rfl (rfl)))

/-- common.go 358-362 -/
def Currency.fields : Fields :=
  .field [] "CURRATE".toList false (.leaf .amount) <|
  .field [] "CURSYM".toList false (.leaf .curr) <|
  .nil
/-- common.go 358-362: schema. -/
def Currency.ty : Ty := .struct .free Currency.fields
/-- common.go 358-362: conversion to a value of the schema. -/
def Currency.toDen (x : Currency) : Currency.ty.Den :=
  (x.XMLName, x.CurRate, x.CurSym, ())
/-- common.go 358-362: conversion from a value of the schema. -/
def Currency.ofDen (d : Currency.ty.Den) : Currency :=
  ⟨d.1, d.2.1, d.2.2.1⟩
@[simp] theorem Currency.ofDen_toDen (x : Currency) : Currency.ofDen (Currency.toDen x) = x := by
  simp [Currency.toDen, Currency.ofDen]
theorem Currency.toDen_ofDen (d : Currency.ty.Den) : Currency.toDen (Currency.ofDen d) = d :=
  Prod.ext rfl (Prod.ext rfl (Prod.ext rfl (rfl)))

/-- bank.go 12-24 -/
def StatementRequest.fields : Fields :=
  .field [] "TRNUID".toList false (.leaf .uid) <|
  .field [] "CLTCOOKIE".toList true (.leaf .str) <|
  .field [] "TAN".toList true (.leaf .str) <|
  .field ["STMTRQ".toList] "BANKACCTFROM".toList false BankAcct.ty <|
  .field ["STMTRQ".toList, "INCTRAN".toList] "DTSTART".toList true (.ptr (.leaf .date)) <|
  .field ["STMTRQ".toList, "INCTRAN".toList] "DTEND".toList true (.ptr (.leaf .date)) <|
  .field ["STMTRQ".toList, "INCTRAN".toList] "INCLUDE".toList false (.leaf .bool) <|
  .field ["STMTRQ".toList] "INCLUDEPENDING".toList true (.leaf .bool) <|
  .field ["STMTRQ".toList] "INCTRANIMG".toList true (.leaf .bool) <|
  .nil
/-- bank.go 12-24: schema. -/
def StatementRequest.ty : Ty := .struct (.tag "STMTTRNRQ".toList) StatementRequest.fields
/-- bank.go 12-24: conversion to a value of the schema. -/
def StatementRequest.toDen (x : StatementRequest) : StatementRequest.ty.Den :=
  ((), x.TrnUID, x.CltCookie, x.TAN, BankAcct.toDen x.BankAcctFrom, x.DtStart, x.DtEnd, x.Include, x.IncludePending, x.IncTranImg, ())
/-- bank.go 12-24: conversion from a value of the schema. -/
def StatementRequest.ofDen (d : StatementRequest.ty.Den) : StatementRequest :=
  ⟨d.2.1, d.2.2.1, d.2.2.2.1, BankAcct.ofDen d.2.2.2.2.1, d.2.2.2.2.2.1, d.2.2.2.2.2.2.1, d.2.2.2.2.2.2.2.1, d.2.2.2.2.2.2.2.2.1, d.2.2.2.2.2.2.2.2.2.1⟩
@[simp] theorem StatementRequest.ofDen_toDen (x : StatementRequest) : StatementRequest.ofDen (StatementRequest.toDen x) = x := by
  simp [StatementRequest.toDen, StatementRequest.ofDen]
theorem StatementRequest.toDen_ofDen (d : StatementRequest.ty.Den) : StatementRequest.toDen (StatementRequest.ofDen d) = d :=
  Prod.ext rfl (Prod.ext rfl (Prod.ext rfl (Prod.ext rfl (Prod.ext (BankAcct.toDen_ofDen _) (Prod.ext rfl (Prod.ext rfl (Prod.ext rfl (Prod.ext rfl (Prod.ext rfl (rfl))))))))))

/-- bank.go 53-64 -/
def Payee.fields : Fields :=
  .field [] "NAME".toList false (.leaf .str) <|
  .field [] "ADDR1".toList false (.leaf .str) <|
  .field [] "ADDR2".toList true (.leaf .str) <|
  .field [] "ADDR3".toList true (.leaf .str) <|
  .field [] "CITY".toList false (.leaf .str) <|
  .field [] "STATE".toList false (.leaf .str) <|
  .field [] "POSTALCODE".toList false (.leaf .str) <|
  .field [] "COUNTRY".toList true (.leaf .str) <|
  .field [] "PHONE".toList false (.leaf .str) <|
  .nil
/-- bank.go 53-64: schema. -/
def Payee.ty : Ty := .struct (.tag "PAYEE".toList) Payee.fields
/-- bank.go 53-64: conversion to a value of the schema. -/
def Payee.toDen (x : Payee) : Payee.ty.Den :=
  ((), x.Name, x.Addr1, x.Addr2, x.Addr3, x.City, x.State, x.PostalCode, x.Country, x.Phone, ())
/-- bank.go 53-64: conversion from a value of the schema. -/
def Payee.ofDen (d : Payee.ty.Den) : Payee :=
  ⟨d.2.1, d.2.2.1, d.2.2.2.1, d.2.2.2.2.1, d.2.2.2.2.2.1, d.2.2.2.2.2.2.1, d.2.2.2.2.2.2.2.1, d.2.2.2.2.2.2.2.2.1, d.2.2.2.2.2.2.2.2.2.1⟩
@[simp] theorem Payee.ofDen_toDen (x : Payee) : Payee.ofDen (Payee.toDen x) = x := by
  simp [Payee.toDen, Payee.ofDen]
theorem Payee.toDen_ofDen (d : Payee.ty.Den) : Payee.toDen (Payee.ofDen d) = d :=
  Prod.ext rfl (Prod.ext rfl (Prod.ext rfl (Prod.ext rfl (Prod.ext rfl (Prod.ext rfl (Prod.ext rfl (Prod.ext rfl (Prod.ext rfl (Prod.ext rfl (rfl))))))))))

/-- bank.go 88-98 -/
def ImageData.fields : Fields :=
  .field [] "IMAGETYPE".toList false (.leaf (.enum enumImageType)) <|
  .field [] "IMAGEREF".toList false (.leaf .str) <|
  .field [] "IMAGEREFTYPE".toList false (.leaf (.enum enumImageRefType)) <|
  .field [] "IMAGEDELAY".toList true (.leaf .int) <|
  .field [] "DTIMAGEAVAIL".toList true (.ptr (.leaf .date)) <|
  .field [] "IMAGETTL".toList true (.leaf .int) <|
  .field [] "CHECKSUP".toList true (.leaf (.enum enumCheckSup)) <|
  .nil
/-- bank.go 88-98: schema. -/
def ImageData.ty : Ty := .struct (.tag "IMAGEDATA".toList) ImageData.fields
/-- bank.go 88-98: conversion to a value of the schema. -/
def ImageData.toDen (x : ImageData) : ImageData.ty.Den :=
  ((), x.ImageType, x.ImageRef, x.ImageRefType, x.ImageDelay, x.DtImageAvail, x.ImageTTL, x.CheckSup, ())
/-- bank.go 88-98: conversion from a value of the schema. -/
def ImageData.ofDen (d : ImageData.ty.Den) : ImageData :=
  ⟨d.2.1, d.2.2.1, d.2.2.2.1, d.2.2.2.2.1, d.2.2.2.2.2.1, d.2.2.2.2.2.2.1, d.2.2.2.2.2.2.2.1⟩
@[simp] theorem ImageData.ofDen_toDen (x : ImageData) : ImageData.ofDen (ImageData.toDen x) = x := by
  simp [ImageData.toDen, ImageData.ofDen]
theorem ImageData.toDen_ofDen (d : ImageData.ty.Den) : ImageData.toDen (ImageData.ofDen d) = d :=
  Prod.ext rfl (Prod.ext rfl (Prod.ext rfl (Prod.ext rfl (Prod.ext rfl (Prod.ext rfl (Prod.ext rfl (Prod.ext rfl (rfl))))))))

/-- bank.go 104-132 -/
def Transaction.fields : Fields :=
  .field [] "TRNTYPE".toList false (.leaf (.enum enumTrnType)) <|
  .field [] "DTPOSTED".toList false (.leaf .date) <|
  .field [] "DTUSER".toList true (.ptr (.leaf .date)) <|
  .field [] "DTAVAIL".toList true (.ptr (.leaf .date)) <|
  .field [] "TRNAMT".toList false (.leaf .amount) <|
  .field [] "FITID".toList false (.leaf .str) <|
  .field [] "CORRECTFITID".toList true (.leaf .str) <|
  .field [] "CORRECTACTION".toList true (.leaf (.enum enumCorrectAction)) <|
  .field [] "SRVRTID".toList true (.leaf .str) <|
  .field [] "CHECKNUM".toList true (.leaf .str) <|
  .field [] "REFNUM".toList true (.leaf .str) <|
  .field [] "SIC".toList true (.leaf .int) <|
  .field [] "PAYEEID".toList true (.leaf .str) <|
  .field [] "NAME".toList true (.leaf .str) <|
  .field [] "PAYEE".toList true (.ptr Payee.ty) <|
  .field [] "EXTDNAME".toList true (.leaf .str) <|
  .field [] "BANKACCTTO".toList true (.ptr BankAcct.ty) <|
  .field [] "CCACCTTO".toList true (.ptr CCAcct.ty) <|
  .field [] "MEMO".toList true (.leaf .str) <|
  .field [] "IMAGEDATA".toList true (.slice ImageData.ty) <|
  .field [] "CURRENCY".toList true (.ptr Currency.ty) <|
  .field [] "ORIGCURRENCY".toList true (.ptr Currency.ty) <|
  .field [] "INV401KSOURCE".toList true (.leaf (.enum enumInv401kSource)) <|
  .nil
/-- bank.go 104-132: schema. -/
def Transaction.ty : Ty := .struct (.tag "STMTTRN".toList) Transaction.fields
/-- bank.go 104-132: conversion to a value of the schema. -/
def Transaction.toDen (x : Transaction) : Transaction.ty.Den :=
  ((), x.TrnType, x.DtPosted, x.DtUser, x.DtAvail, x.TrnAmt, x.FiTID, x.CorrectFiTID, x.CorrectAction, x.SrvrTID, x.CheckNum, x.RefNum, x.SIC, x.PayeeID, x.Name, Option.map Payee.toDen x.Payee, x.ExtdName, Option.map BankAcct.toDen x.BankAcctTo, Option.map CCAcct.toDen x.CCAcctTo, x.Memo, List.map ImageData.toDen x.ImageData, Option.map Currency.toDen x.Currency, Option.map Currency.toDen x.OrigCurrency, x.Inv401kSource, ())
/-- bank.go 104-132: conversion from a value of the schema. -/
def Transaction.ofDen (d : Transaction.ty.Den) : Transaction :=
  ⟨d.2.1, d.2.2.1, d.2.2.2.1, d.2.2.2.2.1, d.2.2.2.2.2.1, d.2.2.2.2.2.2.1, d.2.2.2.2.2.2.2.1, d.2.2.2.2.2.2.2.2.1, d.2.2.2.2.2.2.2.2.2.1, d.2.2.2.2.2.2.2.2.2.2.1, d.2.2.2.2.2.2.2.2.2.2.2.1, d.2.2.2.2.2.2.2.2.2.2.2.2.1, d.2.2.2.2.2.2.2.2.2.2.2.2.2.1, d.2.2.2.2.2.2.2.2.2.2.2.2.2.2.1, Option.map Payee.ofDen d.2.2.2.2.2.2.2.2.2.2.2.2.2.2.2.1, d.2.2.2.2.2.2.2.2.2.2.2.2.2.2.2.2.1, Option.map BankAcct.ofDen d.2.2.2.2.2.2.2.2.2.2.2.2.2.2.2.2.2.1, Option.map CCAcct.ofDen d.2.2.2.2.2.2.2.2.2.2.2.2.2.2.2.2.2.2.1, d.2.2.2.2.2.2.2.2.2.2.2.2.2.2.2.2.2.2.2.1, List.map ImageData.ofDen d.2.2.2.2.2.2.2.2.2.2.2.2.2.2.2.2.2.2.2.2.1, Option.map Currency.ofDen d.2.2.2.2.2.2.2.2.2.2.2.2.2.2.2.2.2.2.2.2.2.1, Option.map Currency.ofDen d.2.2.2.2.2.2.2.2.2.2.2.2.2.2.2.2.2.2.2.2.2.2.1, d.2.2.2.2.2.2.2.2.2.2.2.2.2.2.2.2.2.2.2.2.2.2.2.1⟩
@[simp] theorem Transaction.ofDen_toDen (x : Transaction) : Transaction.ofDen (Transaction.toDen x) = x := by
  simp [Transaction.toDen, Transaction.ofDen, Function.comp_def]
theorem Transaction.toDen_ofDen (d : Transaction.ty.Den) : Transaction.toDen (Transaction.ofDen d) = d :=
  Prod.ext rfl (Prod.ext rfl (Prod.ext rfl (Prod.ext rfl (Prod.ext rfl (Prod.ext rfl (Prod.ext rfl (Prod.ext rfl (Prod.ext rfl (Prod.ext rfl (Prod.ext rfl (Prod.ext rfl (Prod.ext rfl (Prod.ext rfl (Prod.ext rfl (Prod.ext (optInv Payee.toDen_ofDen _) (Prod.ext rfl (Prod.ext (optInv BankAcct.toDen_ofDen _) (Prod.ext (optInv CCAcct.toDen_ofDen _) (Prod.ext rfl (Prod.ext (listInv ImageData.toDen_ofDen _) (Prod.ext (optInv Currency.toDen_ofDen _) (Prod.ext (optInv Currency.toDen_ofDen _) (Prod.ext rfl (rfl))))))))))))))))))))))))

/-- bank.go 184-189 -/
def TransactionList.fields : Fields :=
  .field [] "DTSTART".toList false (.leaf .date) <|
  .field [] "DTEND".toList false (.leaf .date) <|
  .field [] "STMTTRN".toList true (.slice Transaction.ty) <|
  .nil
/-- bank.go 184-189: schema. -/
def TransactionList.ty : Ty := .struct (.tag "BANKTRANLIST".toList) TransactionList.fields
/-- bank.go 184-189: conversion to a value of the schema. -/
def TransactionList.toDen (x : TransactionList) : TransactionList.ty.Den :=
  ((), x.DtStart, x.DtEnd, List.map Transaction.toDen x.Transactions, ())
/-- bank.go 184-189: conversion from a value of the schema. -/
def TransactionList.ofDen (d : TransactionList.ty.Den) : TransactionList :=
  ⟨d.2.1, d.2.2.1, List.map Transaction.ofDen d.2.2.2.1⟩
@[simp] theorem TransactionList.ofDen_toDen (x : TransactionList) : TransactionList.ofDen (TransactionList.toDen x) = x := by
  simp [TransactionList.toDen, TransactionList.ofDen, Function.comp_def]
theorem TransactionList.toDen_ofDen (d : TransactionList.ty.Den) : TransactionList.toDen (TransactionList.ofDen d) = d :=
  Prod.ext rfl (Prod.ext rfl (Prod.ext rfl (Prod.ext (listInv Transaction.toDen_ofDen _) (rfl))))

/-- bank.go 211-226 -/
def PendingTransaction.fields : Fields :=
  .field [] "TRNTYPE".toList false (.leaf (.enum enumTrnType)) <|
  .field [] "DTTRAN".toList false (.leaf .date) <|
  .field [] "DTEXPIRE".toList true (.ptr (.leaf .date)) <|
  .field [] "TRNAMT".toList false (.leaf .amount) <|
  .field [] "REFNUM".toList true (.leaf .str) <|
  .field [] "NAME".toList true (.leaf .str) <|
  .field [] "EXTDNAME".toList true (.leaf .str) <|
  .field [] "MEMO".toList true (.leaf .str) <|
  .field [] "IMAGEDATA".toList true (.slice ImageData.ty) <|
  .field [] "CURRENCY".toList true Currency.ty <|
  .field [] "ORIGCURRENCY".toList true Currency.ty <|
  .nil
/-- bank.go 211-226: schema. -/
def PendingTransaction.ty : Ty := .struct (.tag "STMTTRNP".toList) PendingTransaction.fields
/-- bank.go 211-226: conversion to a value of the schema. -/
def PendingTransaction.toDen (x : PendingTransaction) : PendingTransaction.ty.Den :=
  ((), x.TrnType, x.DtTran, x.DtExpire, x.TrnAmt, x.RefNum, x.Name, x.ExtdName, x.Memo, List.map ImageData.toDen x.ImageData, Currency.toDen x.Currency, Currency.toDen x.OrigCurrency, ())
/-- bank.go 211-226: conversion from a value of the schema. -/
def PendingTransaction.ofDen (d : PendingTransaction.ty.Den) : PendingTransaction :=
  ⟨d.2.1, d.2.2.1, d.2.2.2.1, d.2.2.2.2.1, d.2.2.2.2.2.1, d.2.2.2.2.2.2.1, d.2.2.2.2.2.2.2.1, d.2.2.2.2.2.2.2.2.1, List.map ImageData.ofDen d.2.2.2.2.2.2.2.2.2.1, Currency.ofDen d.2.2.2.2.2.2.2.2.2.2.1, Currency.ofDen d.2.2.2.2.2.2.2.2.2.2.2.1⟩
@[simp] theorem PendingTransaction.ofDen_toDen (x : PendingTransaction) : PendingTransaction.ofDen (PendingTransaction.toDen x) = x := by
  simp [PendingTransaction.toDen, PendingTransaction.ofDen, Function.comp_def]
theorem PendingTransaction.toDen_ofDen (d : PendingTransaction.ty.Den) : PendingTransaction.toDen (PendingTransaction.ofDen d) = d :=
  Prod.ext rfl (Prod.ext rfl (Prod.ext rfl (Prod.ext rfl (Prod.ext rfl (Prod.ext rfl (Prod.ext rfl (Prod.ext rfl (Prod.ext rfl (Prod.ext (listInv ImageData.toDen_ofDen _) (Prod.ext (Currency.toDen_ofDen _) (Prod.ext (Currency.toDen_ofDen _) (rfl))))))))))))

/-- bank.go 248-252 -/
def PendingTransactionList.fields : Fields :=
  .field [] "DTASOF".toList false (.leaf .date) <|
  .field [] "STMTTRNP".toList true (.slice PendingTransaction.ty) <|
  .nil
/-- bank.go 248-252: schema. -/
def PendingTransactionList.ty : Ty := .struct (.tag "BANKTRANLISTP".toList) PendingTransactionList.fields
/-- bank.go 248-252: conversion to a value of the schema. -/
def PendingTransactionList.toDen (x : PendingTransactionList) : PendingTransactionList.ty.Den :=
  ((), x.DtAsOf, List.map PendingTransaction.toDen x.Transactions, ())
/-- bank.go 248-252: conversion from a value of the schema. -/
def PendingTransactionList.ofDen (d : PendingTransactionList.ty.Den) : PendingTransactionList :=
  ⟨d.2.1, List.map PendingTransaction.ofDen d.2.2.1⟩
@[simp] theorem PendingTransactionList.ofDen_toDen (x : PendingTransactionList) : PendingTransactionList.ofDen (PendingTransactionList.toDen x) = x := by
  simp [PendingTransactionList.toDen, PendingTransactionList.ofDen, Function.comp_def]
theorem PendingTransactionList.toDen_ofDen (d : PendingTransactionList.ty.Den) : PendingTransactionList.toDen (PendingTransactionList.ofDen d) = d :=
  Prod.ext rfl (Prod.ext rfl (Prod.ext (listInv PendingTransaction.toDen_ofDen _) (rfl)))

/-- bank.go 270-284 -/
def Balance.fields : Fields :=
  .field [] "NAME".toList false (.leaf .str) <|
  .field [] "DESC".toList false (.leaf .str) <|
  .field [] "BALTYPE".toList false (.leaf (.enum enumBalType)) <|
  .field [] "VALUE".toList false (.leaf .amount) <|
  .field [] "DTASOF".toList true (.ptr (.leaf .date)) <|
  .field [] "CURRENCY".toList true (.ptr Currency.ty) <|
  .nil
/-- bank.go 270-284: schema. -/
def Balance.ty : Ty := .struct (.tag "BAL".toList) Balance.fields
/-- bank.go 270-284: conversion to a value of the schema. -/
def Balance.toDen (x : Balance) : Balance.ty.Den :=
  ((), x.Name, x.Desc, x.BalType, x.Value, x.DtAsOf, Option.map Currency.toDen x.Currency, ())
/-- bank.go 270-284: conversion from a value of the schema. -/
def Balance.ofDen (d : Balance.ty.Den) : Balance :=
  ⟨d.2.1, d.2.2.1, d.2.2.2.1, d.2.2.2.2.1, d.2.2.2.2.2.1, Option.map Currency.ofDen d.2.2.2.2.2.2.1⟩
@[simp] theorem Balance.ofDen_toDen (x : Balance) : Balance.ofDen (Balance.toDen x) = x := by
  simp [Balance.toDen, Balance.ofDen, Function.comp_def]
theorem Balance.toDen_ofDen (d : Balance.ty.Den) : Balance.toDen (Balance.ofDen d) = d :=
  Prod.ext rfl (Prod.ext rfl (Prod.ext rfl (Prod.ext rfl (Prod.ext rfl (Prod.ext rfl (Prod.ext (optInv Currency.toDen_ofDen _) (rfl)))))))

/-- bank.go 300-318 -/
def StatementResponse.fields : Fields :=
  .field [] "TRNUID".toList false (.leaf .uid) <|
  .field [] "STATUS".toList false Status.ty <|
  .field [] "CLTCOOKIE".toList true (.leaf .str) <|
  .field ["STMTRS".toList] "CURDEF".toList false (.leaf .curr) <|
  .field ["STMTRS".toList] "BANKACCTFROM".toList false BankAcct.ty <|
  .field ["STMTRS".toList] "BANKTRANLIST".toList true (.ptr TransactionList.ty) <|
  .field ["STMTRS".toList] "BANKTRANLISTP".toList true (.ptr PendingTransactionList.ty) <|
  .field ["STMTRS".toList, "LEDGERBAL".toList] "BALAMT".toList false (.leaf .amount) <|
  .field ["STMTRS".toList, "LEDGERBAL".toList] "DTASOF".toList false (.leaf .date) <|
  .field ["STMTRS".toList, "AVAILBAL".toList] "BALAMT".toList true (.ptr (.leaf .amount)) <|
  .field ["STMTRS".toList, "AVAILBAL".toList] "DTASOF".toList true (.ptr (.leaf .date)) <|
  .field ["STMTRS".toList] "CASHADVBALAMT".toList true (.ptr (.leaf .amount)) <|
  .field ["STMTRS".toList] "INTRATE".toList true (.ptr (.leaf .amount)) <|
  .field ["STMTRS".toList, "BALLIST".toList] "BAL".toList true (.slice Balance.ty) <|
  .field ["STMTRS".toList] "MKTGINFO".toList true (.leaf .str) <|
  .nil
/-- bank.go 300-318: schema. -/
def StatementResponse.ty : Ty := .struct (.tag "STMTTRNRS".toList) StatementResponse.fields
/-- bank.go 300-318: conversion to a value of the schema. -/
def StatementResponse.toDen (x : StatementResponse) : StatementResponse.ty.Den :=
  ((), x.TrnUID, Status.toDen x.Status, x.CltCookie, x.CurDef, BankAcct.toDen x.BankAcctFrom, Option.map TransactionList.toDen x.BankTranList, Option.map PendingTransactionList.toDen x.BankTranListP, x.BalAmt, x.DtAsOf, x.AvailBalAmt, x.AvailDtAsOf, x.CashAdvBalAmt, x.IntRate, List.map Balance.toDen x.BalList, x.MktgInfo, ())
/-- bank.go 300-318: conversion from a value of the schema. -/
def StatementResponse.ofDen (d : StatementResponse.ty.Den) : StatementResponse :=
  ⟨d.2.1, Status.ofDen d.2.2.1, d.2.2.2.1, d.2.2.2.2.1, BankAcct.ofDen d.2.2.2.2.2.1, Option.map TransactionList.ofDen d.2.2.2.2.2.2.1, Option.map PendingTransactionList.ofDen d.2.2.2.2.2.2.2.1, d.2.2.2.2.2.2.2.2.1, d.2.2.2.2.2.2.2.2.2.1, d.2.2.2.2.2.2.2.2.2.2.1, d.2.2.2.2.2.2.2.2.2.2.2.1, d.2.2.2.2.2.2.2.2.2.2.2.2.1, d.2.2.2.2.2.2.2.2.2.2.2.2.2.1, List.map Balance.ofDen d.2.2.2.2.2.2.2.2.2.2.2.2.2.2.1, d.2.2.2.2.2.2.2.2.2.2.2.2.2.2.2.1⟩
@[simp] theorem StatementResponse.ofDen_toDen (x : StatementResponse) : StatementResponse.ofDen (StatementResponse.toDen x) = x := by
  simp [StatementResponse.toDen, StatementResponse.ofDen, Function.comp_def]
theorem StatementResponse.toDen_ofDen (d : StatementResponse.ty.Den) : StatementResponse.toDen (StatementResponse.ofDen d) = d :=
  Prod.ext rfl (Prod.ext rfl (Prod.ext (Status.toDen_ofDen _) (Prod.ext rfl (Prod.ext rfl (Prod.ext (BankAcct.toDen_ofDen _) (Prod.ext (optInv TransactionList.toDen_ofDen _) (Prod.ext (optInv PendingTransactionList.toDen_ofDen _) (Prod.ext rfl (Prod.ext rfl (Prod.ext rfl (Prod.ext rfl (Prod.ext rfl (Prod.ext rfl (Prod.ext (listInv Balance.toDen_ofDen _) (Prod.ext rfl (rfl))))))))))))))))

/-- creditcard.go 10-22 -/
def CCStatementRequest.fields : Fields :=
  .field [] "TRNUID".toList false (.leaf .uid) <|
  .field [] "CLTCOOKIE".toList true (.leaf .str) <|
  .field [] "TAN".toList true (.leaf .str) <|
  .field ["CCSTMTRQ".toList] "CCACCTFROM".toList false CCAcct.ty <|
  .field ["CCSTMTRQ".toList, "INCTRAN".toList] "DTSTART".toList true (.ptr (.leaf .date)) <|
  .field ["CCSTMTRQ".toList, "INCTRAN".toList] "DTEND".toList true (.ptr (.leaf .date)) <|
  .field ["CCSTMTRQ".toList, "INCTRAN".toList] "INCLUDE".toList false (.leaf .bool) <|
  .field ["CCSTMTRQ".toList] "INCLUDEPENDING".toList true (.leaf .bool) <|
  .field ["CCSTMTRQ".toList] "INCTRANIMG".toList true (.leaf .bool) <|
  .nil
/-- creditcard.go 10-22: schema. -/
def CCStatementRequest.ty : Ty := .struct (.tag "CCSTMTTRNRQ".toList) CCStatementRequest.fields
/-- creditcard.go 10-22: conversion to a value of the schema. -/
def CCStatementRequest.toDen (x : CCStatementRequest) : CCStatementRequest.ty.Den :=
  ((), x.TrnUID, x.CltCookie, x.TAN, CCAcct.toDen x.CCAcctFrom, x.DtStart, x.DtEnd, x.Include, x.IncludePending, x.IncTranImg, ())
/-- creditcard.go 10-22: conversion from a value of the schema. -/
def CCStatementRequest.ofDen (d : CCStatementRequest.ty.Den) : CCStatementRequest :=
  ⟨d.2.1, d.2.2.1, d.2.2.2.1, CCAcct.ofDen d.2.2.2.2.1, d.2.2.2.2.2.1, d.2.2.2.2.2.2.1, d.2.2.2.2.2.2.2.1, d.2.2.2.2.2.2.2.2.1, d.2.2.2.2.2.2.2.2.2.1⟩
@[simp] theorem CCStatementRequest.ofDen_toDen (x : CCStatementRequest) : CCStatementRequest.ofDen (CCStatementRequest.toDen x) = x := by
  simp [CCStatementRequest.toDen, CCStatementRequest.ofDen]
theorem CCStatementRequest.toDen_ofDen (d : CCStatementRequest.ty.Den) : CCStatementRequest.toDen (CCStatementRequest.ofDen d) = d :=
  Prod.ext rfl (Prod.ext rfl (Prod.ext rfl (Prod.ext rfl (Prod.ext (CCAcct.toDen_ofDen _) (Prod.ext rfl (Prod.ext rfl (Prod.ext rfl (Prod.ext rfl (Prod.ext rfl (rfl))))))))))

/-- creditcard.go 48-71 -/
def CCStatementResponse.fields : Fields :=
  .field [] "TRNUID".toList false (.leaf .uid) <|
  .field [] "STATUS".toList false Status.ty <|
  .field [] "CLTCOOKIE".toList true (.leaf .str) <|
  .field ["CCSTMTRS".toList] "CURDEF".toList false (.leaf .curr) <|
  .field ["CCSTMTRS".toList] "CCACCTFROM".toList false CCAcct.ty <|
  .field ["CCSTMTRS".toList] "BANKTRANLIST".toList true (.ptr TransactionList.ty) <|
  .field ["CCSTMTRS".toList, "LEDGERBAL".toList] "BALAMT".toList false (.leaf .amount) <|
  .field ["CCSTMTRS".toList, "LEDGERBAL".toList] "DTASOF".toList false (.leaf .date) <|
  .field ["CCSTMTRS".toList, "AVAILBAL".toList] "BALAMT".toList true (.ptr (.leaf .amount)) <|
  .field ["CCSTMTRS".toList, "AVAILBAL".toList] "DTASOF".toList true (.ptr (.leaf .date)) <|
  .field ["CCSTMTRS".toList] "CASHADVBALAMT".toList true (.leaf .amount) <|
  .field ["CCSTMTRS".toList] "INTRATEPURCH".toList true (.leaf .amount) <|
  .field ["CCSTMTRS".toList] "INTRATECASH".toList true (.leaf .amount) <|
  .field ["CCSTMTRS".toList] "INTRATEXFER".toList true (.leaf .amount) <|
  .field ["CCSTMTRS".toList, "REWARDINFO".toList] "NAME".toList true (.leaf .str) <|
  .field ["CCSTMTRS".toList, "REWARDINFO".toList] "REWARDBAL".toList true (.leaf .amount) <|
  .field ["CCSTMTRS".toList, "REWARDINFO".toList] "REWARDEARNED".toList true (.leaf .amount) <|
  .field ["CCSTMTRS".toList, "BALLIST".toList] "BAL".toList true (.slice Balance.ty) <|
  .field ["CCSTMTRS".toList] "MKTGINFO".toList true (.leaf .str) <|
  .nil
/-- creditcard.go 48-71: schema. -/
def CCStatementResponse.ty : Ty := .struct (.tag "CCSTMTTRNRS".toList) CCStatementResponse.fields
/-- creditcard.go 48-71: conversion to a value of the schema. -/
def CCStatementResponse.toDen (x : CCStatementResponse) : CCStatementResponse.ty.Den :=
  ((), x.TrnUID, Status.toDen x.Status, x.CltCookie, x.CurDef, CCAcct.toDen x.CCAcctFrom, Option.map TransactionList.toDen x.BankTranList, x.BalAmt, x.DtAsOf, x.AvailBalAmt, x.AvailDtAsOf, x.CashAdvBalAmt, x.IntRatePurch, x.IntRateCash, x.IntRateXfer, x.RewardName, x.RewardBal, x.RewardEarned, List.map Balance.toDen x.BalList, x.MktgInfo, ())
/-- creditcard.go 48-71: conversion from a value of the schema. -/
def CCStatementResponse.ofDen (d : CCStatementResponse.ty.Den) : CCStatementResponse :=
  ⟨d.2.1, Status.ofDen d.2.2.1, d.2.2.2.1, d.2.2.2.2.1, CCAcct.ofDen d.2.2.2.2.2.1, Option.map TransactionList.ofDen d.2.2.2.2.2.2.1, d.2.2.2.2.2.2.2.1, d.2.2.2.2.2.2.2.2.1, d.2.2.2.2.2.2.2.2.2.1, d.2.2.2.2.2.2.2.2.2.2.1, d.2.2.2.2.2.2.2.2.2.2.2.1, d.2.2.2.2.2.2.2.2.2.2.2.2.1, d.2.2.2.2.2.2.2.2.2.2.2.2.2.1, d.2.2.2.2.2.2.2.2.2.2.2.2.2.2.1, d.2.2.2.2.2.2.2.2.2.2.2.2.2.2.2.1, d.2.2.2.2.2.2.2.2.2.2.2.2.2.2.2.2.1, d.2.2.2.2.2.2.2.2.2.2.2.2.2.2.2.2.2.1, List.map Balance.ofDen d.2.2.2.2.2.2.2.2.2.2.2.2.2.2.2.2.2.2.1, d.2.2.2.2.2.2.2.2.2.2.2.2.2.2.2.2.2.2.2.1⟩
@[simp] theorem CCStatementResponse.ofDen_toDen (x : CCStatementResponse) : CCStatementResponse.ofDen (CCStatementResponse.toDen x) = x := by
  simp [CCStatementResponse.toDen, CCStatementResponse.ofDen, Function.comp_def]
theorem CCStatementResponse.toDen_ofDen (d : CCStatementResponse.ty.Den) : CCStatementResponse.toDen (CCStatementResponse.ofDen d) = d :=
  Prod.ext rfl (Prod.ext rfl (Prod.ext (Status.toDen_ofDen _) (Prod.ext rfl (Prod.ext rfl (Prod.ext (CCAcct.toDen_ofDen _) (Prod.ext (optInv TransactionList.toDen_ofDen _) (Prod.ext rfl (Prod.ext rfl (Prod.ext rfl (Prod.ext rfl (Prod.ext rfl (Prod.ext rfl (Prod.ext rfl (Prod.ext rfl (Prod.ext rfl (Prod.ext rfl (Prod.ext rfl (Prod.ext (listInv Balance.toDen_ofDen _) (Prod.ext rfl (rfl))))))))))))))))))))

/-- signon.go 11-24 -/
def SignonRequest.fields : Fields :=
  .field [] "DTCLIENT".toList false (.leaf .date) <|
  .field [] "USERID".toList false (.leaf .str) <|
  .field [] "USERPASS".toList true (.leaf .str) <|
  .field [] "USERKEY".toList true (.leaf .str) <|
  .field [] "GENUSERKEY".toList true (.leaf .bool) <|
  .field [] "LANGUAGE".toList false (.leaf .str) <|
  .field ["FI".toList] "ORG".toList false (.leaf .str) <|
  .field ["FI".toList] "FID".toList false (.leaf .str) <|
  .field [] "APPID".toList false (.leaf .str) <|
  .field [] "APPVER".toList false (.leaf .str) <|
  .field [] "CLIENTUID".toList true (.leaf .uid) <|
  .nil
/-- signon.go 11-24: schema. -/
def SignonRequest.ty : Ty := .struct (.tag "SONRQ".toList) SignonRequest.fields
/-- signon.go 11-24: conversion to a value of the schema. -/
def SignonRequest.toDen (x : SignonRequest) : SignonRequest.ty.Den :=
  ((), x.DtClient, x.UserID, x.UserPass, x.UserKey, x.GenUserKey, x.Language, x.Org, x.Fid, x.AppID, x.AppVer, x.ClientUID, ())
/-- signon.go 11-24: conversion from a value of the schema. -/
def SignonRequest.ofDen (d : SignonRequest.ty.Den) : SignonRequest :=
  ⟨d.2.1, d.2.2.1, d.2.2.2.1, d.2.2.2.2.1, d.2.2.2.2.2.1, d.2.2.2.2.2.2.1, d.2.2.2.2.2.2.2.1, d.2.2.2.2.2.2.2.2.1, d.2.2.2.2.2.2.2.2.2.1, d.2.2.2.2.2.2.2.2.2.2.1, d.2.2.2.2.2.2.2.2.2.2.2.1⟩
@[simp] theorem SignonRequest.ofDen_toDen (x : SignonRequest) : SignonRequest.ofDen (SignonRequest.toDen x) = x := by
  simp [SignonRequest.toDen, SignonRequest.ofDen]
theorem SignonRequest.toDen_ofDen (d : SignonRequest.ty.Den) : SignonRequest.toDen (SignonRequest.ofDen d) = d :=
  Prod.ext rfl (Prod.ext rfl (Prod.ext rfl (Prod.ext rfl (Prod.ext rfl (Prod.ext rfl (Prod.ext rfl (Prod.ext rfl (Prod.ext rfl (Prod.ext rfl (Prod.ext rfl (Prod.ext rfl (rfl))))))))))))

/-- signon.go 62-75 -/
def SignonResponse.fields : Fields :=
  .field [] "STATUS".toList false Status.ty <|
  .field [] "DTSERVER".toList false (.leaf .date) <|
  .field [] "USERKEY".toList true (.leaf .str) <|
  .field [] "TSKEYEXPIRE".toList true (.ptr (.leaf .date)) <|
  .field [] "LANGUAGE".toList false (.leaf .str) <|
  .field [] "DTPROFUP".toList true (.ptr (.leaf .date)) <|
  .field [] "DTACCTUP".toList true (.ptr (.leaf .date)) <|
  .field ["FI".toList] "ORG".toList false (.leaf .str) <|
  .field ["FI".toList] "FID".toList false (.leaf .str) <|
  .field [] "SESSCOOKIE".toList true (.leaf .str) <|
  .field [] "ACCESSKEY".toList true (.leaf .str) <|
  .nil
/-- signon.go 62-75: schema. -/
def SignonResponse.ty : Ty := .struct (.tag "SONRS".toList) SignonResponse.fields
/-- signon.go 62-75: conversion to a value of the schema. -/
def SignonResponse.toDen (x : SignonResponse) : SignonResponse.ty.Den :=
  ((), Status.toDen x.Status, x.DtServer, x.UserKey, x.TsKeyExpire, x.Language, x.DtProfUp, x.DtAcctUp, x.Org, x.Fid, x.SessCookie, x.AccessKey, ())
/-- signon.go 62-75: conversion from a value of the schema. -/
def SignonResponse.ofDen (d : SignonResponse.ty.Den) : SignonResponse :=
  ⟨Status.ofDen d.2.1, d.2.2.1, d.2.2.2.1, d.2.2.2.2.1, d.2.2.2.2.2.1, d.2.2.2.2.2.2.1, d.2.2.2.2.2.2.2.1, d.2.2.2.2.2.2.2.2.1, d.2.2.2.2.2.2.2.2.2.1, d.2.2.2.2.2.2.2.2.2.2.1, d.2.2.2.2.2.2.2.2.2.2.2.1⟩
@[simp] theorem SignonResponse.ofDen_toDen (x : SignonResponse) : SignonResponse.ofDen (SignonResponse.toDen x) = x := by
  simp [SignonResponse.toDen, SignonResponse.ofDen]
theorem SignonResponse.toDen_ofDen (d : SignonResponse.ty.Den) : SignonResponse.toDen (SignonResponse.ofDen d) = d :=
  Prod.ext rfl (Prod.ext (Status.toDen_ofDen _) (Prod.ext rfl (Prod.ext rfl (Prod.ext rfl (Prod.ext rfl (Prod.ext rfl (Prod.ext rfl (Prod.ext rfl (Prod.ext rfl (Prod.ext rfl (Prod.ext rfl (rfl))))))))))))

/-- signup.go 10-17 -/
def AcctInfoRequest.fields : Fields :=
  .field [] "TRNUID".toList false (.leaf .uid) <|
  .field [] "CLTCOOKIE".toList true (.leaf .str) <|
  .field [] "TAN".toList true (.leaf .str) <|
  .field ["ACCTINFORQ".toList] "DTACCTUP".toList false (.leaf .date) <|
  .nil
/-- signup.go 10-17: schema. -/
def AcctInfoRequest.ty : Ty := .struct (.tag "ACCTINFOTRNRQ".toList) AcctInfoRequest.fields
/-- signup.go 10-17: conversion to a value of the schema. -/
def AcctInfoRequest.toDen (x : AcctInfoRequest) : AcctInfoRequest.ty.Den :=
  ((), x.TrnUID, x.CltCookie, x.TAN, x.DtAcctUp, ())
/-- signup.go 10-17: conversion from a value of the schema. -/
def AcctInfoRequest.ofDen (d : AcctInfoRequest.ty.Den) : AcctInfoRequest :=
  ⟨d.2.1, d.2.2.1, d.2.2.2.1, d.2.2.2.2.1⟩
@[simp] theorem AcctInfoRequest.ofDen_toDen (x : AcctInfoRequest) : AcctInfoRequest.ofDen (AcctInfoRequest.toDen x) = x := by
  simp [AcctInfoRequest.toDen, AcctInfoRequest.ofDen]
theorem AcctInfoRequest.toDen_ofDen (d : AcctInfoRequest.ty.Den) : AcctInfoRequest.toDen (AcctInfoRequest.ofDen d) = d :=
  Prod.ext rfl (Prod.ext rfl (Prod.ext rfl (Prod.ext rfl (Prod.ext rfl (rfl)))))

/-- signup.go 41-57 -/
def HolderInfo.fields : Fields :=
  .field [] "FIRSTNAME".toList false (.leaf .str) <|
  .field [] "MIDDLENAME".toList true (.leaf .str) <|
  .field [] "LASTNAME".toList false (.leaf .str) <|
  .field [] "ADDR1".toList false (.leaf .str) <|
  .field [] "ADDR2".toList true (.leaf .str) <|
  .field [] "ADDR3".toList true (.leaf .str) <|
  .field [] "CITY".toList false (.leaf .str) <|
  .field [] "STATE".toList false (.leaf .str) <|
  .field [] "POSTALCODE".toList false (.leaf .str) <|
  .field [] "COUNTRY".toList true (.leaf .str) <|
  .field [] "DAYPHONE".toList true (.leaf .str) <|
  .field [] "EVEPHONE".toList true (.leaf .str) <|
  .field [] "EMAIL".toList true (.leaf .str) <|
  .field [] "HOLDERTYPE".toList true (.leaf (.enum enumHolderType)) <|
  .nil
/-- signup.go 41-57: schema. -/
def HolderInfo.ty : Ty := .struct .free HolderInfo.fields
/-- signup.go 41-57: conversion to a value of the schema. -/
def HolderInfo.toDen (x : HolderInfo) : HolderInfo.ty.Den :=
  (x.XMLName, x.FirstName, x.MiddleName, x.LastName, x.Addr1, x.Addr2, x.Addr3, x.City, x.State, x.PostalCode, x.Country, x.DayPhone, x.EvePhone, x.Email, x.HolderType, ())
/-- signup.go 41-57: conversion from a value of the schema. -/
def HolderInfo.ofDen (d : HolderInfo.ty.Den) : HolderInfo :=
  ⟨d.1, d.2.1, d.2.2.1, d.2.2.2.1, d.2.2.2.2.1, d.2.2.2.2.2.1, d.2.2.2.2.2.2.1, d.2.2.2.2.2.2.2.1, d.2.2.2.2.2.2.2.2.1, d.2.2.2.2.2.2.2.2.2.1, d.2.2.2.2.2.2.2.2.2.2.1, d.2.2.2.2.2.2.2.2.2.2.2.1, d.2.2.2.2.2.2.2.2.2.2.2.2.1, d.2.2.2.2.2.2.2.2.2.2.2.2.2.1, d.2.2.2.2.2.2.2.2.2.2.2.2.2.2.1⟩
@[simp] theorem HolderInfo.ofDen_toDen (x : HolderInfo) : HolderInfo.ofDen (HolderInfo.toDen x) = x := by
  simp [HolderInfo.toDen, HolderInfo.ofDen]
theorem HolderInfo.toDen_ofDen (d : HolderInfo.ty.Den) : HolderInfo.toDen (HolderInfo.ofDen d) = d :=
  Prod.ext rfl (Prod.ext rfl (Prod.ext rfl (Prod.ext rfl (Prod.ext rfl (Prod.ext rfl (Prod.ext rfl (Prod.ext rfl (Prod.ext rfl (Prod.ext rfl (Prod.ext rfl (Prod.ext rfl (Prod.ext rfl (Prod.ext rfl (Prod.ext rfl (rfl)))))))))))))))

/-- signup.go 62-74 -/
def BankAcctInfo.fields : Fields :=
  .field [] "BANKACCTFROM".toList false BankAcct.ty <|
  .field [] "SUPTXDL".toList false (.leaf .bool) <|
  .field [] "XFERSRC".toList false (.leaf .bool) <|
  .field [] "XFERDEST".toList false (.leaf .bool) <|
  .field [] "MATURITYDATE".toList true (.leaf .date) <|
  .field [] "MATURITYAMOUNT".toList true (.leaf .amount) <|
  .field [] "MINBALREQ".toList true (.leaf .amount) <|
  .field [] "ACCTCLASSIFICATION".toList true (.leaf (.enum enumAcctClassification)) <|
  .field [] "OVERDRAFTLIMIT".toList true (.leaf .amount) <|
  .field [] "SVCSTATUS".toList false (.leaf (.enum enumSvcStatus)) <|
  .nil
/-- signup.go 62-74: schema. -/
def BankAcctInfo.ty : Ty := .struct (.tag "BANKACCTINFO".toList) BankAcctInfo.fields
/-- signup.go 62-74: conversion to a value of the schema. -/
def BankAcctInfo.toDen (x : BankAcctInfo) : BankAcctInfo.ty.Den :=
  ((), BankAcct.toDen x.BankAcctFrom, x.SupTxDl, x.XferSrc, x.XferDest, x.MaturityDate, x.MaturityAmt, x.MinBalReq, x.AcctClassification, x.OverdraftLimit, x.SvcStatus, ())
/-- signup.go 62-74: conversion from a value of the schema. -/
def BankAcctInfo.ofDen (d : BankAcctInfo.ty.Den) : BankAcctInfo :=
  ⟨BankAcct.ofDen d.2.1, d.2.2.1, d.2.2.2.1, d.2.2.2.2.1, d.2.2.2.2.2.1, d.2.2.2.2.2.2.1, d.2.2.2.2.2.2.2.1, d.2.2.2.2.2.2.2.2.1, d.2.2.2.2.2.2.2.2.2.1, d.2.2.2.2.2.2.2.2.2.2.1⟩
@[simp] theorem BankAcctInfo.ofDen_toDen (x : BankAcctInfo) : BankAcctInfo.ofDen (BankAcctInfo.toDen x) = x := by
  simp [BankAcctInfo.toDen, BankAcctInfo.ofDen]
theorem BankAcctInfo.toDen_ofDen (d : BankAcctInfo.ty.Den) : BankAcctInfo.toDen (BankAcctInfo.ofDen d) = d :=
  Prod.ext rfl (Prod.ext (BankAcct.toDen_ofDen _) (Prod.ext rfl (Prod.ext rfl (Prod.ext rfl (Prod.ext rfl (Prod.ext rfl (Prod.ext rfl (Prod.ext rfl (Prod.ext rfl (Prod.ext rfl (rfl)))))))))))

/-- signup.go 84-92 -/
def CCAcctInfo.fields : Fields :=
  .field [] "CCACCTFROM".toList false CCAcct.ty <|
  .field [] "SUPTXDL".toList false (.leaf .bool) <|
  .field [] "XFERSRC".toList false (.leaf .bool) <|
  .field [] "XFERDEST".toList false (.leaf .bool) <|
  .field [] "ACCTCLASSIFICATION".toList true (.leaf (.enum enumAcctClassification)) <|
  .field [] "SVCSTATUS".toList false (.leaf (.enum enumSvcStatus)) <|
  .nil
/-- signup.go 84-92: schema. -/
def CCAcctInfo.ty : Ty := .struct (.tag "CCACCTINFO".toList) CCAcctInfo.fields
/-- signup.go 84-92: conversion to a value of the schema. -/
def CCAcctInfo.toDen (x : CCAcctInfo) : CCAcctInfo.ty.Den :=
  ((), CCAcct.toDen x.CCAcctFrom, x.SupTxDl, x.XferSrc, x.XferDest, x.AcctClassification, x.SvcStatus, ())
/-- signup.go 84-92: conversion from a value of the schema. -/
def CCAcctInfo.ofDen (d : CCAcctInfo.ty.Den) : CCAcctInfo :=
  ⟨CCAcct.ofDen d.2.1, d.2.2.1, d.2.2.2.1, d.2.2.2.2.1, d.2.2.2.2.2.1, d.2.2.2.2.2.2.1⟩
@[simp] theorem CCAcctInfo.ofDen_toDen (x : CCAcctInfo) : CCAcctInfo.ofDen (CCAcctInfo.toDen x) = x := by
  simp [CCAcctInfo.toDen, CCAcctInfo.ofDen]
theorem CCAcctInfo.toDen_ofDen (d : CCAcctInfo.ty.Den) : CCAcctInfo.toDen (CCAcctInfo.ofDen d) = d :=
  Prod.ext rfl (Prod.ext (CCAcct.toDen_ofDen _) (Prod.ext rfl (Prod.ext rfl (Prod.ext rfl (Prod.ext rfl (Prod.ext rfl (rfl)))))))

/-- signup.go 102-110 -/
def InvAcctInfo.fields : Fields :=
  .field [] "INVACCTFROM".toList false InvAcct.ty <|
  .field [] "USPRODUCTTYPE".toList false (.leaf (.enum enumUsProductType)) <|
  .field [] "CHECKING".toList false (.leaf .bool) <|
  .field [] "SVCSTATUS".toList false (.leaf (.enum enumSvcStatus)) <|
  .field [] "INVACCTTYPE".toList true (.leaf (.enum enumHolderType)) <|
  .field [] "OPTIONLEVEL".toList true (.leaf .str) <|
  .nil
/-- signup.go 102-110: schema. -/
def InvAcctInfo.ty : Ty := .struct (.tag "INVACCTINFO".toList) InvAcctInfo.fields
/-- signup.go 102-110: conversion to a value of the schema. -/
def InvAcctInfo.toDen (x : InvAcctInfo) : InvAcctInfo.ty.Den :=
  ((), InvAcct.toDen x.InvAcctFrom, x.UsProductType, x.Checking, x.SvcStatus, x.InvAcctType, x.OptionLevel, ())
/-- signup.go 102-110: conversion from a value of the schema. -/
def InvAcctInfo.ofDen (d : InvAcctInfo.ty.Den) : InvAcctInfo :=
  ⟨InvAcct.ofDen d.2.1, d.2.2.1, d.2.2.2.1, d.2.2.2.2.1, d.2.2.2.2.2.1, d.2.2.2.2.2.2.1⟩
@[simp] theorem InvAcctInfo.ofDen_toDen (x : InvAcctInfo) : InvAcctInfo.ofDen (InvAcctInfo.toDen x) = x := by
  simp [InvAcctInfo.toDen, InvAcctInfo.ofDen]
theorem InvAcctInfo.toDen_ofDen (d : InvAcctInfo.ty.Den) : InvAcctInfo.toDen (InvAcctInfo.ofDen d) = d :=
  Prod.ext rfl (Prod.ext (InvAcct.toDen_ofDen _) (Prod.ext rfl (Prod.ext rfl (Prod.ext rfl (Prod.ext rfl (Prod.ext rfl (rfl)))))))

/-- signup.go 120-134 -/
def AcctInfo.fields : Fields :=
  .field [] "NAME".toList true (.leaf .str) <|
  .field [] "DESC".toList true (.leaf .str) <|
  .field [] "PHONE".toList true (.leaf .str) <|
  .field ["HOLDERINFO".toList] "PRIMARYHOLDER".toList true HolderInfo.ty <|
  .field ["HOLDERINFO".toList] "SECONDARYHOLDER".toList true HolderInfo.ty <|
  .field [] "BANKACCTINFO".toList true (.ptr BankAcctInfo.ty) <|
  .field [] "CCACCTINFO".toList true (.ptr CCAcctInfo.ty) <|
  .field [] "INVACCTINFO".toList true (.ptr InvAcctInfo.ty) <|
  .nil
/-- signup.go 120-134: schema. -/
def AcctInfo.ty : Ty := .struct (.tag "ACCTINFO".toList) AcctInfo.fields
/-- signup.go 120-134: conversion to a value of the schema. -/
def AcctInfo.toDen (x : AcctInfo) : AcctInfo.ty.Den :=
  ((), x.Name, x.Desc, x.Phone, HolderInfo.toDen x.PrimaryHolder, HolderInfo.toDen x.SecondaryHolder, Option.map BankAcctInfo.toDen x.BankAcctInfo, Option.map CCAcctInfo.toDen x.CCAcctInfo, Option.map InvAcctInfo.toDen x.InvAcctInfo, ())
/-- signup.go 120-134: conversion from a value of the schema. -/
def AcctInfo.ofDen (d : AcctInfo.ty.Den) : AcctInfo :=
  ⟨d.2.1, d.2.2.1, d.2.2.2.1, HolderInfo.ofDen d.2.2.2.2.1, HolderInfo.ofDen d.2.2.2.2.2.1, Option.map BankAcctInfo.ofDen d.2.2.2.2.2.2.1, Option.map CCAcctInfo.ofDen d.2.2.2.2.2.2.2.1, Option.map InvAcctInfo.ofDen d.2.2.2.2.2.2.2.2.1⟩
@[simp] theorem AcctInfo.ofDen_toDen (x : AcctInfo) : AcctInfo.ofDen (AcctInfo.toDen x) = x := by
  simp [AcctInfo.toDen, AcctInfo.ofDen, Function.comp_def]
theorem AcctInfo.toDen_ofDen (d : AcctInfo.ty.Den) : AcctInfo.toDen (AcctInfo.ofDen d) = d :=
  Prod.ext rfl (Prod.ext rfl (Prod.ext rfl (Prod.ext rfl (Prod.ext (HolderInfo.toDen_ofDen _) (Prod.ext (HolderInfo.toDen_ofDen _) (Prod.ext (optInv BankAcctInfo.toDen_ofDen _) (Prod.ext (optInv CCAcctInfo.toDen_ofDen _) (Prod.ext (optInv InvAcctInfo.toDen_ofDen _) (rfl)))))))))

/-- signup.go 138-146 -/
def AcctInfoResponse.fields : Fields :=
  .field [] "TRNUID".toList false (.leaf .uid) <|
  .field [] "STATUS".toList false Status.ty <|
  .field [] "CLTCOOKIE".toList true (.leaf .str) <|
  .field ["ACCTINFORS".toList] "DTACCTUP".toList false (.leaf .date) <|
  .field ["ACCTINFORS".toList] "ACCTINFO".toList true (.slice AcctInfo.ty) <|
  .nil
/-- signup.go 138-146: schema. -/
def AcctInfoResponse.ty : Ty := .struct (.tag "ACCTINFOTRNRS".toList) AcctInfoResponse.fields
/-- signup.go 138-146: conversion to a value of the schema. -/
def AcctInfoResponse.toDen (x : AcctInfoResponse) : AcctInfoResponse.ty.Den :=
  ((), x.TrnUID, Status.toDen x.Status, x.CltCookie, x.DtAcctUp, List.map AcctInfo.toDen x.AcctInfo, ())
/-- signup.go 138-146: conversion from a value of the schema. -/
def AcctInfoResponse.ofDen (d : AcctInfoResponse.ty.Den) : AcctInfoResponse :=
  ⟨d.2.1, Status.ofDen d.2.2.1, d.2.2.2.1, d.2.2.2.2.1, List.map AcctInfo.ofDen d.2.2.2.2.2.1⟩
@[simp] theorem AcctInfoResponse.ofDen_toDen (x : AcctInfoResponse) : AcctInfoResponse.ofDen (AcctInfoResponse.toDen x) = x := by
  simp [AcctInfoResponse.toDen, AcctInfoResponse.ofDen, Function.comp_def]
theorem AcctInfoResponse.toDen_ofDen (d : AcctInfoResponse.ty.Den) : AcctInfoResponse.toDen (AcctInfoResponse.ofDen d) = d :=
  Prod.ext rfl (Prod.ext rfl (Prod.ext (Status.toDen_ofDen _) (Prod.ext rfl (Prod.ext rfl (Prod.ext (listInv AcctInfo.toDen_ofDen _) (rfl))))))

/-- profile.go 12-20 -/
def ProfileRequest.fields : Fields :=
  .field [] "TRNUID".toList false (.leaf .uid) <|
  .field [] "CLTCOOKIE".toList true (.leaf .str) <|
  .field [] "TAN".toList true (.leaf .str) <|
  .field ["PROFRQ".toList] "CLIENTROUTING".toList false (.leaf .str) <|
  .field ["PROFRQ".toList] "DTPROFUP".toList false (.leaf .date) <|
  .nil
/-- profile.go 12-20: schema. -/
def ProfileRequest.ty : Ty := .struct (.tag "PROFTRNRQ".toList) ProfileRequest.fields
/-- profile.go 12-20: conversion to a value of the schema. -/
def ProfileRequest.toDen (x : ProfileRequest) : ProfileRequest.ty.Den :=
  ((), x.TrnUID, x.CltCookie, x.TAN, x.ClientRouting, x.DtProfUp, ())
/-- profile.go 12-20: conversion from a value of the schema. -/
def ProfileRequest.ofDen (d : ProfileRequest.ty.Den) : ProfileRequest :=
  ⟨d.2.1, d.2.2.1, d.2.2.2.1, d.2.2.2.2.1, d.2.2.2.2.2.1⟩
@[simp] theorem ProfileRequest.ofDen_toDen (x : ProfileRequest) : ProfileRequest.ofDen (ProfileRequest.toDen x) = x := by
  simp [ProfileRequest.toDen, ProfileRequest.ofDen]
theorem ProfileRequest.toDen_ofDen (d : ProfileRequest.ty.Den) : ProfileRequest.toDen (ProfileRequest.ofDen d) = d :=
  Prod.ext rfl (Prod.ext rfl (Prod.ext rfl (Prod.ext rfl (Prod.ext rfl (Prod.ext rfl (rfl))))))

/-- profile.go 48-68 -/
def SignonInfo.fields : Fields :=
  .field [] "SIGNONREALM".toList false (.leaf .str) <|
  .field [] "MIN".toList false (.leaf .int) <|
  .field [] "MAX".toList false (.leaf .int) <|
  .field [] "CHARTYPE".toList false (.leaf (.enum enumCharType)) <|
  .field [] "CASESEN".toList false (.leaf .bool) <|
  .field [] "SPECIAL".toList false (.leaf .bool) <|
  .field [] "SPACES".toList false (.leaf .bool) <|
  .field [] "PINCH".toList false (.leaf .bool) <|
  .field [] "CHGPINFIRST".toList false (.leaf .bool) <|
  .field [] "USERCRED1LABEL".toList true (.leaf .str) <|
  .field [] "USERCRED2LABEL".toList true (.leaf .str) <|
  .field [] "CLIENTUIDREQ".toList true (.leaf .bool) <|
  .field [] "AUTHTOKENFIRST".toList true (.leaf .bool) <|
  .field [] "AUTHTOKENLABEL".toList true (.leaf .str) <|
  .field [] "AUTHTOKENINFOURL".toList true (.leaf .str) <|
  .field [] "MFACHALLENGESUPT".toList true (.leaf .bool) <|
  .field [] "MFACHALLENGEFIRST".toList true (.leaf .bool) <|
  .field [] "ACCESSTOKENREQ".toList true (.leaf .bool) <|
  .nil
/-- profile.go 48-68: schema. -/
def SignonInfo.ty : Ty := .struct (.tag "SIGNONINFO".toList) SignonInfo.fields
/-- profile.go 48-68: conversion to a value of the schema. -/
def SignonInfo.toDen (x : SignonInfo) : SignonInfo.ty.Den :=
  ((), x.SignonRealm, x.Min, x.Max, x.CharType, x.CaseSen, x.Special, x.Spaces, x.PinCh, x.ChgPinFirst, x.UserCred1Label, x.UserCred2Label, x.ClientUIDReq, x.AuthTokenFirst, x.AuthTokenLabel, x.AuthTokenInfoURL, x.MFAChallengeSupt, x.MFAChallengeFIRST, x.AccessTokenReq, ())
/-- profile.go 48-68: conversion from a value of the schema. -/
def SignonInfo.ofDen (d : SignonInfo.ty.Den) : SignonInfo :=
  ⟨d.2.1, d.2.2.1, d.2.2.2.1, d.2.2.2.2.1, d.2.2.2.2.2.1, d.2.2.2.2.2.2.1, d.2.2.2.2.2.2.2.1, d.2.2.2.2.2.2.2.2.1, d.2.2.2.2.2.2.2.2.2.1, d.2.2.2.2.2.2.2.2.2.2.1, d.2.2.2.2.2.2.2.2.2.2.2.1, d.2.2.2.2.2.2.2.2.2.2.2.2.1, d.2.2.2.2.2.2.2.2.2.2.2.2.2.1, d.2.2.2.2.2.2.2.2.2.2.2.2.2.2.1, d.2.2.2.2.2.2.2.2.2.2.2.2.2.2.2.1, d.2.2.2.2.2.2.2.2.2.2.2.2.2.2.2.2.1, d.2.2.2.2.2.2.2.2.2.2.2.2.2.2.2.2.2.1, d.2.2.2.2.2.2.2.2.2.2.2.2.2.2.2.2.2.2.1⟩
@[simp] theorem SignonInfo.ofDen_toDen (x : SignonInfo) : SignonInfo.ofDen (SignonInfo.toDen x) = x := by
  simp [SignonInfo.toDen, SignonInfo.ofDen]
theorem SignonInfo.toDen_ofDen (d : SignonInfo.ty.Den) : SignonInfo.toDen (SignonInfo.ofDen d) = d :=
  Prod.ext rfl (Prod.ext rfl (Prod.ext rfl (Prod.ext rfl (Prod.ext rfl (Prod.ext rfl (Prod.ext rfl (Prod.ext rfl (Prod.ext rfl (Prod.ext rfl (Prod.ext rfl (Prod.ext rfl (Prod.ext rfl (Prod.ext rfl (Prod.ext rfl (Prod.ext rfl (Prod.ext rfl (Prod.ext rfl (Prod.ext rfl (rfl)))))))))))))))))))

/-- profile.go 72-86 -/
def MessageSet.tagged : Fields :=
  .field ["MSGSETCORE".toList] "VER".toList false (.leaf .int) <|
  .field ["MSGSETCORE".toList] "URL".toList false (.leaf .str) <|
  .field ["MSGSETCORE".toList] "OFXSEC".toList false (.leaf (.enum enumOfxSec)) <|
  .field ["MSGSETCORE".toList] "TRANSPSEC".toList false (.leaf .bool) <|
  .field ["MSGSETCORE".toList] "SIGNONREALM".toList false (.leaf .str) <|
  .field ["MSGSETCORE".toList] "LANGUAGE".toList false (.slice (.leaf .str)) <|
  .field ["MSGSETCORE".toList] "SYNCMODE".toList false (.leaf (.enum enumSyncMode)) <|
  .field ["MSGSETCORE".toList] "REFRESHSUPT".toList true (.leaf .bool) <|
  .field ["MSGSETCORE".toList] "RESPFILEER".toList false (.leaf .bool) <|
  .field ["MSGSETCORE".toList] "SPNAME".toList false (.leaf .str) <|
  .nil
abbrev MessageSet.Den := Str × Str × MessageSet.tagged.Den
/-- profile.go 72-86: conversion to a value of the schema. -/
def MessageSet.toDen (x : MessageSet) : MessageSet.Den :=
  (x.XMLName, x.Name, x.Ver, x.URL, x.OfxSec, x.TranspSec, x.SignonRealm, x.Language, x.SyncMode, x.RefreshSupt, x.RespFileER, x.SpName, ())
/-- profile.go 72-86: conversion from a value of the schema. -/
def MessageSet.ofDen (d : MessageSet.Den) : MessageSet :=
  ⟨d.1, d.2.1, d.2.2.1, d.2.2.2.1, d.2.2.2.2.1, d.2.2.2.2.2.1, d.2.2.2.2.2.2.1, d.2.2.2.2.2.2.2.1, d.2.2.2.2.2.2.2.2.1, d.2.2.2.2.2.2.2.2.2.1, d.2.2.2.2.2.2.2.2.2.2.1, d.2.2.2.2.2.2.2.2.2.2.2.1⟩
@[simp] theorem MessageSet.ofDen_toDen (x : MessageSet) : MessageSet.ofDen (MessageSet.toDen x) = x := by
  simp [MessageSet.toDen, MessageSet.ofDen]
theorem MessageSet.toDen_ofDen (d : MessageSet.Den) : MessageSet.toDen (MessageSet.ofDen d) = d :=
  Prod.ext rfl (Prod.ext rfl (Prod.ext rfl (Prod.ext rfl (Prod.ext rfl (Prod.ext rfl (Prod.ext rfl (Prod.ext rfl (Prod.ext rfl (Prod.ext rfl (Prod.ext rfl (Prod.ext rfl (rfl))))))))))))

/-- profile.go 93-157 `MessageSetList.UnmarshalXML`, `MarshalXML` -/
def MessageSetList.ty : Ty := .msgSets MessageSet.tagged
/-- profile.go 90: conversion to a value of the schema. -/
def MessageSetList.toDen (x : MessageSetList) : MessageSetList.ty.Den := List.map MessageSet.toDen x
/-- profile.go 90: conversion from a value of the schema. -/
def MessageSetList.ofDen (d : MessageSetList.ty.Den) : MessageSetList := List.map MessageSet.ofDen d
@[simp] theorem MessageSetList.ofDen_toDen (x : MessageSetList) : MessageSetList.ofDen (MessageSetList.toDen x) = x := by
  simp [MessageSetList.toDen, MessageSetList.ofDen, Function.comp_def]
theorem MessageSetList.toDen_ofDen (d : MessageSetList.ty.Den) : MessageSetList.toDen (MessageSetList.ofDen d) = d := listInv MessageSet.toDen_ofDen _

/-- profile.go 164-186 -/
def ProfileResponse.fields : Fields :=
  .field [] "TRNUID".toList false (.leaf .uid) <|
  .field [] "STATUS".toList false Status.ty <|
  .field [] "CLTCOOKIE".toList true (.leaf .str) <|
  .field ["PROFRS".toList] "MSGSETLIST".toList false MessageSetList.ty <|
  .field ["PROFRS".toList, "SIGNONINFOLIST".toList] "SIGNONINFO".toList false (.slice SignonInfo.ty) <|
  .field ["PROFRS".toList] "DTPROFUP".toList false (.leaf .date) <|
  .field ["PROFRS".toList] "FINAME".toList false (.leaf .str) <|
  .field ["PROFRS".toList] "ADDR1".toList false (.leaf .str) <|
  .field ["PROFRS".toList] "ADDR2".toList true (.leaf .str) <|
  .field ["PROFRS".toList] "ADDR3".toList true (.leaf .str) <|
  .field ["PROFRS".toList] "CITY".toList false (.leaf .str) <|
  .field ["PROFRS".toList] "STATE".toList false (.leaf .str) <|
  .field ["PROFRS".toList] "POSTALCODE".toList false (.leaf .str) <|
  .field ["PROFRS".toList] "COUNTRY".toList false (.leaf .str) <|
  .field ["PROFRS".toList] "CSPHONE".toList true (.leaf .str) <|
  .field ["PROFRS".toList] "TSPHONE".toList true (.leaf .str) <|
  .field ["PROFRS".toList] "FAXPHONE".toList true (.leaf .str) <|
  .field ["PROFRS".toList] "URL".toList true (.leaf .str) <|
  .field ["PROFRS".toList] "EMAIL".toList true (.leaf .str) <|
  .nil
/-- profile.go 164-186: schema. -/
def ProfileResponse.ty : Ty := .struct (.tag "PROFTRNRS".toList) ProfileResponse.fields
/-- profile.go 164-186: conversion to a value of the schema. -/
def ProfileResponse.toDen (x : ProfileResponse) : ProfileResponse.ty.Den :=
  ((), x.TrnUID, Status.toDen x.Status, x.CltCookie, MessageSetList.toDen x.MessageSetList, List.map SignonInfo.toDen x.SignonInfoList, x.DtProfUp, x.FiName, x.Addr1, x.Addr2, x.Addr3, x.City, x.State, x.PostalCode, x.Country, x.CsPhone, x.TsPhone, x.FaxPhone, x.URL, x.Email, ())
/-- profile.go 164-186: conversion from a value of the schema. -/
def ProfileResponse.ofDen (d : ProfileResponse.ty.Den) : ProfileResponse :=
  ⟨d.2.1, Status.ofDen d.2.2.1, d.2.2.2.1, MessageSetList.ofDen d.2.2.2.2.1, List.map SignonInfo.ofDen d.2.2.2.2.2.1, d.2.2.2.2.2.2.1, d.2.2.2.2.2.2.2.1, d.2.2.2.2.2.2.2.2.1, d.2.2.2.2.2.2.2.2.2.1, d.2.2.2.2.2.2.2.2.2.2.1, d.2.2.2.2.2.2.2.2.2.2.2.1, d.2.2.2.2.2.2.2.2.2.2.2.2.1, d.2.2.2.2.2.2.2.2.2.2.2.2.2.1, d.2.2.2.2.2.2.2.2.2.2.2.2.2.2.1, d.2.2.2.2.2.2.2.2.2.2.2.2.2.2.2.1, d.2.2.2.2.2.2.2.2.2.2.2.2.2.2.2.2.1, d.2.2.2.2.2.2.2.2.2.2.2.2.2.2.2.2.2.1, d.2.2.2.2.2.2.2.2.2.2.2.2.2.2.2.2.2.2.1, d.2.2.2.2.2.2.2.2.2.2.2.2.2.2.2.2.2.2.2.1⟩
@[simp] theorem ProfileResponse.ofDen_toDen (x : ProfileResponse) : ProfileResponse.ofDen (ProfileResponse.toDen x) = x := by
  simp [ProfileResponse.toDen, ProfileResponse.ofDen, Function.comp_def]
theorem ProfileResponse.toDen_ofDen (d : ProfileResponse.ty.Den) : ProfileResponse.toDen (ProfileResponse.ofDen d) = d :=
  Prod.ext rfl (Prod.ext rfl (Prod.ext (Status.toDen_ofDen _) (Prod.ext rfl (Prod.ext (MessageSetList.toDen_ofDen _) (Prod.ext (listInv SignonInfo.toDen_ofDen _) (Prod.ext rfl (Prod.ext rfl (Prod.ext rfl (Prod.ext rfl (Prod.ext rfl (Prod.ext rfl (Prod.ext rfl (Prod.ext rfl (Prod.ext rfl (Prod.ext rfl (Prod.ext rfl (Prod.ext rfl (Prod.ext rfl (Prod.ext rfl (rfl))))))))))))))))))))

/-- seclist.go 10-14 -/
def SecurityID.fields : Fields :=
  .field [] "UNIQUEID".toList false (.leaf .str) <|
  .field [] "UNIQUEIDTYPE".toList false (.leaf .str) <|
  .nil
/-- seclist.go 10-14: schema. -/
def SecurityID.ty : Ty := .struct (.tag "SECID".toList) SecurityID.fields
/-- seclist.go 10-14: conversion to a value of the schema. -/
def SecurityID.toDen (x : SecurityID) : SecurityID.ty.Den :=
  ((), x.UniqueID, x.UniqueIDType, ())
/-- seclist.go 10-14: conversion from a value of the schema. -/
def SecurityID.ofDen (d : SecurityID.ty.Den) : SecurityID :=
  ⟨d.2.1, d.2.2.1⟩
@[simp] theorem SecurityID.ofDen_toDen (x : SecurityID) : SecurityID.ofDen (SecurityID.toDen x) = x := by
  simp [SecurityID.toDen, SecurityID.ofDen]
theorem SecurityID.toDen_ofDen (d : SecurityID.ty.Den) : SecurityID.toDen (SecurityID.ofDen d) = d :=
  Prod.ext rfl (Prod.ext rfl (Prod.ext rfl (rfl)))

/-- seclist.go 19-25 -/
def SecurityRequest.fields : Fields :=
  .field [] "SECID".toList true (.ptr SecurityID.ty) <|
  .field [] "TICKER".toList true (.leaf .str) <|
  .field [] "FIID".toList true (.leaf .str) <|
  .nil
/-- seclist.go 19-25: schema. -/
def SecurityRequest.ty : Ty := .struct (.tag "SECRQ".toList) SecurityRequest.fields
/-- seclist.go 19-25: conversion to a value of the schema. -/
def SecurityRequest.toDen (x : SecurityRequest) : SecurityRequest.ty.Den :=
  ((), Option.map SecurityID.toDen x.SecID, x.Ticker, x.FiID, ())
/-- seclist.go 19-25: conversion from a value of the schema. -/
def SecurityRequest.ofDen (d : SecurityRequest.ty.Den) : SecurityRequest :=
  ⟨Option.map SecurityID.ofDen d.2.1, d.2.2.1, d.2.2.2.1⟩
@[simp] theorem SecurityRequest.ofDen_toDen (x : SecurityRequest) : SecurityRequest.ofDen (SecurityRequest.toDen x) = x := by
  simp [SecurityRequest.toDen, SecurityRequest.ofDen, Function.comp_def]
theorem SecurityRequest.toDen_ofDen (d : SecurityRequest.ty.Den) : SecurityRequest.toDen (SecurityRequest.ofDen d) = d :=
  Prod.ext rfl (Prod.ext (optInv SecurityID.toDen_ofDen _) (Prod.ext rfl (Prod.ext rfl (rfl))))

/-- seclist.go 29-36 -/
def SecListRequest.fields : Fields :=
  .field [] "TRNUID".toList false (.leaf .uid) <|
  .field [] "CLTCOOKIE".toList true (.leaf .str) <|
  .field [] "TAN".toList true (.leaf .str) <|
  .field ["SECLISTRQ".toList] "SECRQ".toList true (.slice SecurityRequest.ty) <|
  .nil
/-- seclist.go 29-36: schema. -/
def SecListRequest.ty : Ty := .struct (.tag "SECLISTTRNRQ".toList) SecListRequest.fields
/-- seclist.go 29-36: conversion to a value of the schema. -/
def SecListRequest.toDen (x : SecListRequest) : SecListRequest.ty.Den :=
  ((), x.TrnUID, x.CltCookie, x.TAN, List.map SecurityRequest.toDen x.Securities, ())
/-- seclist.go 29-36: conversion from a value of the schema. -/
def SecListRequest.ofDen (d : SecListRequest.ty.Den) : SecListRequest :=
  ⟨d.2.1, d.2.2.1, d.2.2.2.1, List.map SecurityRequest.ofDen d.2.2.2.2.1⟩
@[simp] theorem SecListRequest.ofDen_toDen (x : SecListRequest) : SecListRequest.ofDen (SecListRequest.toDen x) = x := by
  simp [SecListRequest.toDen, SecListRequest.ofDen, Function.comp_def]
theorem SecListRequest.toDen_ofDen (d : SecListRequest.ty.Den) : SecListRequest.toDen (SecListRequest.ofDen d) = d :=
  Prod.ext rfl (Prod.ext rfl (Prod.ext rfl (Prod.ext rfl (Prod.ext (listInv SecurityRequest.toDen_ofDen _) (rfl)))))

/-- seclist.go 64-71 -/
def SecListResponse.fields : Fields :=
  .field [] "TRNUID".toList false (.leaf .uid) <|
  .field [] "STATUS".toList false Status.ty <|
  .field [] "CLTCOOKIE".toList true (.leaf .str) <|
  .nil
/-- seclist.go 64-71: schema. -/
def SecListResponse.ty : Ty := .struct (.tag "SECLISTTRNRS".toList) SecListResponse.fields
/-- seclist.go 64-71: conversion to a value of the schema. -/
def SecListResponse.toDen (x : SecListResponse) : SecListResponse.ty.Den :=
  ((), x.TrnUID, Status.toDen x.Status, x.CltCookie, ())
/-- seclist.go 64-71: conversion from a value of the schema. -/
def SecListResponse.ofDen (d : SecListResponse.ty.Den) : SecListResponse :=
  ⟨d.2.1, Status.ofDen d.2.2.1, d.2.2.2.1⟩
@[simp] theorem SecListResponse.ofDen_toDen (x : SecListResponse) : SecListResponse.ofDen (SecListResponse.toDen x) = x := by
  simp [SecListResponse.toDen, SecListResponse.ofDen]
theorem SecListResponse.toDen_ofDen (d : SecListResponse.ty.Den) : SecListResponse.toDen (SecListResponse.ofDen d) = d :=
  Prod.ext rfl (Prod.ext rfl (Prod.ext (Status.toDen_ofDen _) (Prod.ext rfl (rfl))))

/-- seclist.go 102-113 -/
def SecInfo.fields : Fields :=
  .field [] "SECID".toList false SecurityID.ty <|
  .field [] "SECNAME".toList false (.leaf .str) <|
  .field [] "TICKER".toList true (.leaf .str) <|
  .field [] "FIID".toList true (.leaf .str) <|
  .field [] "RATING".toList true (.leaf .str) <|
  .field [] "UNITPRICE".toList true (.leaf .amount) <|
  .field [] "DTASOF".toList true (.ptr (.leaf .date)) <|
  .field [] "CURRENCY".toList true (.ptr Currency.ty) <|
  .field [] "MEMO".toList true (.leaf .str) <|
  .nil
/-- seclist.go 102-113: schema. -/
def SecInfo.ty : Ty := .struct (.tag "SECINFO".toList) SecInfo.fields
/-- seclist.go 102-113: conversion to a value of the schema. -/
def SecInfo.toDen (x : SecInfo) : SecInfo.ty.Den :=
  ((), SecurityID.toDen x.SecID, x.SecName, x.Ticker, x.FiID, x.Rating, x.UnitPrice, x.DtAsOf, Option.map Currency.toDen x.Currency, x.Memo, ())
/-- seclist.go 102-113: conversion from a value of the schema. -/
def SecInfo.ofDen (d : SecInfo.ty.Den) : SecInfo :=
  ⟨SecurityID.ofDen d.2.1, d.2.2.1, d.2.2.2.1, d.2.2.2.2.1, d.2.2.2.2.2.1, d.2.2.2.2.2.2.1, d.2.2.2.2.2.2.2.1, Option.map Currency.ofDen d.2.2.2.2.2.2.2.2.1, d.2.2.2.2.2.2.2.2.2.1⟩
@[simp] theorem SecInfo.ofDen_toDen (x : SecInfo) : SecInfo.ofDen (SecInfo.toDen x) = x := by
  simp [SecInfo.toDen, SecInfo.ofDen, Function.comp_def]
theorem SecInfo.toDen_ofDen (d : SecInfo.ty.Den) : SecInfo.toDen (SecInfo.ofDen d) = d :=
  Prod.ext rfl (Prod.ext (SecurityID.toDen_ofDen _) (Prod.ext rfl (Prod.ext rfl (Prod.ext rfl (Prod.ext rfl (Prod.ext rfl (Prod.ext rfl (Prod.ext (optInv Currency.toDen_ofDen _) (Prod.ext rfl (rfl))))))))))

/-- seclist.go 116-133 -/
def DebtInfo.fields : Fields :=
  .field [] "SECINFO".toList false SecInfo.ty <|
  .field [] "PARVALUE".toList false (.leaf .amount) <|
  .field [] "DEBTTYPE".toList false (.leaf (.enum enumDebtType)) <|
  .field [] "DEBTCLASS".toList true (.leaf (.enum enumDebtClass)) <|
  .field [] "COUPONRT".toList true (.leaf .amount) <|
  .field [] "DTCOUPON".toList true (.ptr (.leaf .date)) <|
  .field [] "COUPONFREQ".toList true (.leaf (.enum enumCouponFreq)) <|
  .field [] "CALLPRICE".toList true (.leaf .amount) <|
  .field [] "YIELDTOCALL".toList true (.leaf .amount) <|
  .field [] "DTCALL".toList true (.ptr (.leaf .date)) <|
  .field [] "CALLTYPE".toList false (.leaf (.enum enumCallType)) <|
  .field [] "YIELDTOMAT".toList true (.leaf .amount) <|
  .field [] "DTMAT".toList true (.ptr (.leaf .date)) <|
  .field [] "ASSETCLASS".toList true (.leaf (.enum enumAssetClass)) <|
  .field [] "FIASSETCLASS".toList true (.leaf .str) <|
  .nil
/-- seclist.go 116-133: schema. -/
def DebtInfo.ty : Ty := .struct (.tag "DEBTINFO".toList) DebtInfo.fields
/-- seclist.go 116-133: conversion to a value of the schema. -/
def DebtInfo.toDen (x : DebtInfo) : DebtInfo.ty.Den :=
  ((), SecInfo.toDen x.SecInfo, x.ParValue, x.DebtType, x.DebtClass, x.CouponRate, x.DtCoupon, x.CouponFreq, x.CallPrice, x.YieldToCall, x.DtCall, x.CallType, x.YieldToMat, x.DtMat, x.AssetClass, x.FiAssetClass, ())
/-- seclist.go 116-133: conversion from a value of the schema. -/
def DebtInfo.ofDen (d : DebtInfo.ty.Den) : DebtInfo :=
  ⟨SecInfo.ofDen d.2.1, d.2.2.1, d.2.2.2.1, d.2.2.2.2.1, d.2.2.2.2.2.1, d.2.2.2.2.2.2.1, d.2.2.2.2.2.2.2.1, d.2.2.2.2.2.2.2.2.1, d.2.2.2.2.2.2.2.2.2.1, d.2.2.2.2.2.2.2.2.2.2.1, d.2.2.2.2.2.2.2.2.2.2.2.1, d.2.2.2.2.2.2.2.2.2.2.2.2.1, d.2.2.2.2.2.2.2.2.2.2.2.2.2.1, d.2.2.2.2.2.2.2.2.2.2.2.2.2.2.1, d.2.2.2.2.2.2.2.2.2.2.2.2.2.2.2.1⟩
@[simp] theorem DebtInfo.ofDen_toDen (x : DebtInfo) : DebtInfo.ofDen (DebtInfo.toDen x) = x := by
  simp [DebtInfo.toDen, DebtInfo.ofDen]
theorem DebtInfo.toDen_ofDen (d : DebtInfo.ty.Den) : DebtInfo.toDen (DebtInfo.ofDen d) = d :=
  Prod.ext rfl (Prod.ext (SecInfo.toDen_ofDen _) (Prod.ext rfl (Prod.ext rfl (Prod.ext rfl (Prod.ext rfl (Prod.ext rfl (Prod.ext rfl (Prod.ext rfl (Prod.ext rfl (Prod.ext rfl (Prod.ext rfl (Prod.ext rfl (Prod.ext rfl (Prod.ext rfl (Prod.ext rfl (rfl))))))))))))))))

/-- seclist.go 147-151 -/
def AssetPortion.fields : Fields :=
  .field [] "ASSETCLASS".toList false (.leaf (.enum enumAssetClass)) <|
  .field [] "PERCENT".toList false (.leaf .amount) <|
  .nil
/-- seclist.go 147-151: schema. -/
def AssetPortion.ty : Ty := .struct (.tag "PORTION".toList) AssetPortion.fields
/-- seclist.go 147-151: conversion to a value of the schema. -/
def AssetPortion.toDen (x : AssetPortion) : AssetPortion.ty.Den :=
  ((), x.AssetClass, x.Percent, ())
/-- seclist.go 147-151: conversion from a value of the schema. -/
def AssetPortion.ofDen (d : AssetPortion.ty.Den) : AssetPortion :=
  ⟨d.2.1, d.2.2.1⟩
@[simp] theorem AssetPortion.ofDen_toDen (x : AssetPortion) : AssetPortion.ofDen (AssetPortion.toDen x) = x := by
  simp [AssetPortion.toDen, AssetPortion.ofDen]
theorem AssetPortion.toDen_ofDen (d : AssetPortion.ty.Den) : AssetPortion.toDen (AssetPortion.ofDen d) = d :=
  Prod.ext rfl (Prod.ext rfl (Prod.ext rfl (rfl)))

/-- seclist.go 156-160 -/
def FiAssetPortion.fields : Fields :=
  .field [] "FIASSETCLASS".toList true (.leaf .str) <|
  .field [] "PERCENT".toList false (.leaf .amount) <|
  .nil
/-- seclist.go 156-160: schema. -/
def FiAssetPortion.ty : Ty := .struct (.tag "FIPORTION".toList) FiAssetPortion.fields
/-- seclist.go 156-160: conversion to a value of the schema. -/
def FiAssetPortion.toDen (x : FiAssetPortion) : FiAssetPortion.ty.Den :=
  ((), x.FiAssetClass, x.Percent, ())
/-- seclist.go 156-160: conversion from a value of the schema. -/
def FiAssetPortion.ofDen (d : FiAssetPortion.ty.Den) : FiAssetPortion :=
  ⟨d.2.1, d.2.2.1⟩
@[simp] theorem FiAssetPortion.ofDen_toDen (x : FiAssetPortion) : FiAssetPortion.ofDen (FiAssetPortion.toDen x) = x := by
  simp [FiAssetPortion.toDen, FiAssetPortion.ofDen]
theorem FiAssetPortion.toDen_ofDen (d : FiAssetPortion.ty.Den) : FiAssetPortion.toDen (FiAssetPortion.ofDen d) = d :=
  Prod.ext rfl (Prod.ext rfl (Prod.ext rfl (rfl)))

/-- seclist.go 163-171 -/
def MFInfo.fields : Fields :=
  .field [] "SECINFO".toList false SecInfo.ty <|
  .field [] "MFTYPE".toList false (.leaf (.enum enumMfType)) <|
  .field [] "YIELD".toList true (.leaf .amount) <|
  .field [] "DTYIELDASOF".toList true (.ptr (.leaf .date)) <|
  .field ["MFASSETCLASS".toList] "PORTION".toList false (.slice AssetPortion.ty) <|
  .field ["FIMFASSETCLASS".toList] "FIPORTION".toList false (.slice FiAssetPortion.ty) <|
  .nil
/-- seclist.go 163-171: schema. -/
def MFInfo.ty : Ty := .struct (.tag "MFINFO".toList) MFInfo.fields
/-- seclist.go 163-171: conversion to a value of the schema. -/
def MFInfo.toDen (x : MFInfo) : MFInfo.ty.Den :=
  ((), SecInfo.toDen x.SecInfo, x.MfType, x.Yield, x.DtYieldAsOf, List.map AssetPortion.toDen x.AssetClasses, List.map FiAssetPortion.toDen x.FiAssetClasses, ())
/-- seclist.go 163-171: conversion from a value of the schema. -/
def MFInfo.ofDen (d : MFInfo.ty.Den) : MFInfo :=
  ⟨SecInfo.ofDen d.2.1, d.2.2.1, d.2.2.2.1, d.2.2.2.2.1, List.map AssetPortion.ofDen d.2.2.2.2.2.1, List.map FiAssetPortion.ofDen d.2.2.2.2.2.2.1⟩
@[simp] theorem MFInfo.ofDen_toDen (x : MFInfo) : MFInfo.ofDen (MFInfo.toDen x) = x := by
  simp [MFInfo.toDen, MFInfo.ofDen, Function.comp_def]
theorem MFInfo.toDen_ofDen (d : MFInfo.ty.Den) : MFInfo.toDen (MFInfo.ofDen d) = d :=
  Prod.ext rfl (Prod.ext (SecInfo.toDen_ofDen _) (Prod.ext rfl (Prod.ext rfl (Prod.ext rfl (Prod.ext (listInv AssetPortion.toDen_ofDen _) (Prod.ext (listInv FiAssetPortion.toDen_ofDen _) (rfl)))))))

/-- seclist.go 184-194 -/
def OptInfo.fields : Fields :=
  .field [] "SECINFO".toList false SecInfo.ty <|
  .field [] "OPTTYPE".toList false (.leaf (.enum enumOptType)) <|
  .field [] "STRIKEPRICE".toList false (.leaf .amount) <|
  .field [] "DTEXPIRE".toList false (.leaf .date) <|
  .field [] "SHPERCTRCT".toList false (.leaf .int) <|
  .field [] "SECID".toList true (.ptr SecurityID.ty) <|
  .field [] "ASSETCLASS".toList true (.leaf (.enum enumAssetClass)) <|
  .field [] "FIASSETCLASS".toList true (.leaf .str) <|
  .nil
/-- seclist.go 184-194: schema. -/
def OptInfo.ty : Ty := .struct (.tag "OPTINFO".toList) OptInfo.fields
/-- seclist.go 184-194: conversion to a value of the schema. -/
def OptInfo.toDen (x : OptInfo) : OptInfo.ty.Den :=
  ((), SecInfo.toDen x.SecInfo, x.OptType, x.StrikePrice, x.DtExpire, x.ShPerCtrct, Option.map SecurityID.toDen x.SecID, x.AssetClass, x.FiAssetClass, ())
/-- seclist.go 184-194: conversion from a value of the schema. -/
def OptInfo.ofDen (d : OptInfo.ty.Den) : OptInfo :=
  ⟨SecInfo.ofDen d.2.1, d.2.2.1, d.2.2.2.1, d.2.2.2.2.1, d.2.2.2.2.2.1, Option.map SecurityID.ofDen d.2.2.2.2.2.2.1, d.2.2.2.2.2.2.2.1, d.2.2.2.2.2.2.2.2.1⟩
@[simp] theorem OptInfo.ofDen_toDen (x : OptInfo) : OptInfo.ofDen (OptInfo.toDen x) = x := by
  simp [OptInfo.toDen, OptInfo.ofDen, Function.comp_def]
theorem OptInfo.toDen_ofDen (d : OptInfo.ty.Den) : OptInfo.toDen (OptInfo.ofDen d) = d :=
  Prod.ext rfl (Prod.ext (SecInfo.toDen_ofDen _) (Prod.ext rfl (Prod.ext rfl (Prod.ext rfl (Prod.ext rfl (Prod.ext (optInv SecurityID.toDen_ofDen _) (Prod.ext rfl (Prod.ext rfl (rfl)))))))))

/-- seclist.go 208-214 -/
def OtherInfo.fields : Fields :=
  .field [] "SECINFO".toList false SecInfo.ty <|
  .field [] "TYPEDESC".toList true (.leaf .str) <|
  .field [] "ASSETCLASS".toList true (.leaf (.enum enumAssetClass)) <|
  .field [] "FIASSETCLASS".toList true (.leaf .str) <|
  .nil
/-- seclist.go 208-214: schema. -/
def OtherInfo.ty : Ty := .struct (.tag "OTHERINFO".toList) OtherInfo.fields
/-- seclist.go 208-214: conversion to a value of the schema. -/
def OtherInfo.toDen (x : OtherInfo) : OtherInfo.ty.Den :=
  ((), SecInfo.toDen x.SecInfo, x.TypeDesc, x.AssetClass, x.FiAssetClass, ())
/-- seclist.go 208-214: conversion from a value of the schema. -/
def OtherInfo.ofDen (d : OtherInfo.ty.Den) : OtherInfo :=
  ⟨SecInfo.ofDen d.2.1, d.2.2.1, d.2.2.2.1, d.2.2.2.2.1⟩
@[simp] theorem OtherInfo.ofDen_toDen (x : OtherInfo) : OtherInfo.ofDen (OtherInfo.toDen x) = x := by
  simp [OtherInfo.toDen, OtherInfo.ofDen]
theorem OtherInfo.toDen_ofDen (d : OtherInfo.ty.Den) : OtherInfo.toDen (OtherInfo.ofDen d) = d :=
  Prod.ext rfl (Prod.ext (SecInfo.toDen_ofDen _) (Prod.ext rfl (Prod.ext rfl (Prod.ext rfl (rfl)))))

/-- seclist.go 227-235 -/
def StockInfo.fields : Fields :=
  .field [] "SECINFO".toList false SecInfo.ty <|
  .field [] "STOCKTYPE".toList true (.leaf (.enum enumStockType)) <|
  .field [] "YIELD".toList true (.leaf .amount) <|
  .field [] "DTYIELDASOF".toList true (.ptr (.leaf .date)) <|
  .field [] "ASSETCLASS".toList true (.leaf (.enum enumAssetClass)) <|
  .field [] "FIASSETCLASS".toList true (.leaf .str) <|
  .nil
/-- seclist.go 227-235: schema. -/
def StockInfo.ty : Ty := .struct (.tag "STOCKINFO".toList) StockInfo.fields
/-- seclist.go 227-235: conversion to a value of the schema. -/
def StockInfo.toDen (x : StockInfo) : StockInfo.ty.Den :=
  ((), SecInfo.toDen x.SecInfo, x.StockType, x.Yield, x.DtYieldAsOf, x.AssetClass, x.FiAssetClass, ())
/-- seclist.go 227-235: conversion from a value of the schema. -/
def StockInfo.ofDen (d : StockInfo.ty.Den) : StockInfo :=
  ⟨SecInfo.ofDen d.2.1, d.2.2.1, d.2.2.2.1, d.2.2.2.2.1, d.2.2.2.2.2.1, d.2.2.2.2.2.2.1⟩
@[simp] theorem StockInfo.ofDen_toDen (x : StockInfo) : StockInfo.ofDen (StockInfo.toDen x) = x := by
  simp [StockInfo.toDen, StockInfo.ofDen]
theorem StockInfo.toDen_ofDen (d : StockInfo.ty.Den) : StockInfo.toDen (StockInfo.ofDen d) = d :=
  Prod.ext rfl (Prod.ext (SecInfo.toDen_ofDen _) (Prod.ext rfl (Prod.ext rfl (Prod.ext rfl (Prod.ext rfl (Prod.ext rfl (rfl)))))))

/-- Concrete types of Security with the names used to read and write them. -/
def Security.alts : Alts :=
  .alt "DEBTINFO".toList "DEBTINFO".toList DebtInfo.ty <|
  .alt "MFINFO".toList "MFINFO".toList MFInfo.ty <|
  .alt "OPTINFO".toList "OPTINFO".toList OptInfo.ty <|
  .alt "OTHERINFO".toList "OTHERINFO".toList OtherInfo.ty <|
  .alt "STOCKINFO".toList "STOCKINFO".toList StockInfo.ty <|
  .nil
/-- seclist.go 95: the concrete types accepted by the list that holds this interface.: conversion to a value of the schema. -/
def Security.toDen : Security → Security.alts.Den
  | .debtInfo v => .inl (DebtInfo.toDen v)
  | .mfInfo v => .inr (.inl (MFInfo.toDen v))
  | .optInfo v => .inr (.inr (.inl (OptInfo.toDen v)))
  | .otherInfo v => .inr (.inr (.inr (.inl (OtherInfo.toDen v))))
  | .stockInfo v => .inr (.inr (.inr (.inr (.inl (StockInfo.toDen v)))))
/-- seclist.go 95: the concrete types accepted by the list that holds this interface.: conversion from a value of the schema. -/
def Security.ofDen : Security.alts.Den → Security
  | .inl v => .debtInfo (DebtInfo.ofDen v)
  | .inr (.inl v) => .mfInfo (MFInfo.ofDen v)
  | .inr (.inr (.inl v)) => .optInfo (OptInfo.ofDen v)
  | .inr (.inr (.inr (.inl v))) => .otherInfo (OtherInfo.ofDen v)
  | .inr (.inr (.inr (.inr (.inl v)))) => .stockInfo (StockInfo.ofDen v)
@[simp] theorem Security.ofDen_toDen (x : Security) : Security.ofDen (Security.toDen x) = x := by
  cases x <;> simp [Security.toDen, Security.ofDen]
theorem Security.toDen_ofDen : (d : Security.alts.Den) → Security.toDen (Security.ofDen d) = d
  | .inl v => congrArg Sum.inl (DebtInfo.toDen_ofDen v)
  | .inr (.inl v) => congrArg Sum.inr (congrArg Sum.inl (MFInfo.toDen_ofDen v))
  | .inr (.inr (.inl v)) => congrArg Sum.inr (congrArg Sum.inr (congrArg Sum.inl (OptInfo.toDen_ofDen v)))
  | .inr (.inr (.inr (.inl v))) => congrArg Sum.inr (congrArg Sum.inr (congrArg Sum.inr (congrArg Sum.inl (OtherInfo.toDen_ofDen v))))
  | .inr (.inr (.inr (.inr (.inl v)))) => congrArg Sum.inr (congrArg Sum.inr (congrArg Sum.inr (congrArg Sum.inr (congrArg Sum.inl (StockInfo.toDen_ofDen v)))))

/-- seclist.go 272-319 `SecurityList.UnmarshalXML`, 322-358 `MarshalXML` -/
def SecurityList.fields : Fields := .alts Security.alts .nil
/-- seclist.go 249-252: schema. -/
def SecurityList.ty : Ty := .closed "SECLIST".toList false SecurityList.fields
/-- seclist.go 249-252: conversion to a value of the schema. -/
def SecurityList.toDen (x : SecurityList) : SecurityList.ty.Den := (List.map Security.toDen x.Securities, ())
/-- seclist.go 249-252: conversion from a value of the schema. -/
def SecurityList.ofDen (d : SecurityList.ty.Den) : SecurityList := ⟨List.map Security.ofDen d.1⟩
@[simp] theorem SecurityList.ofDen_toDen (x : SecurityList) : SecurityList.ofDen (SecurityList.toDen x) = x := by
  simp [SecurityList.toDen, SecurityList.ofDen, Function.comp_def]
theorem SecurityList.toDen_ofDen (d : SecurityList.ty.Den) : SecurityList.toDen (SecurityList.ofDen d) = d :=
  Prod.ext (listInv Security.toDen_ofDen _) (rfl)

/-- invstmt.go 11-28 -/
def InvStatementRequest.fields : Fields :=
  .field [] "TRNUID".toList false (.leaf .uid) <|
  .field [] "CLTCOOKIE".toList true (.leaf .str) <|
  .field [] "TAN".toList true (.leaf .str) <|
  .field ["INVSTMTRQ".toList] "INVACCTFROM".toList false InvAcct.ty <|
  .field ["INVSTMTRQ".toList, "INCTRAN".toList] "DTSTART".toList true (.ptr (.leaf .date)) <|
  .field ["INVSTMTRQ".toList, "INCTRAN".toList] "DTEND".toList true (.ptr (.leaf .date)) <|
  .field ["INVSTMTRQ".toList, "INCTRAN".toList] "INCLUDE".toList false (.leaf .bool) <|
  .field ["INVSTMTRQ".toList] "INCOO".toList false (.leaf .bool) <|
  .field ["INVSTMTRQ".toList, "INCPOS".toList] "DTASOF".toList true (.ptr (.leaf .date)) <|
  .field ["INVSTMTRQ".toList, "INCPOS".toList] "INCLUDE".toList false (.leaf .bool) <|
  .field ["INVSTMTRQ".toList] "INCBAL".toList false (.leaf .bool) <|
  .field ["INVSTMTRQ".toList] "INC401K".toList true (.leaf .bool) <|
  .field ["INVSTMTRQ".toList] "INC401KBAL".toList true (.leaf .bool) <|
  .field ["INVSTMTRQ".toList] "INCTRANIMAGE".toList true (.leaf .bool) <|
  .nil
/-- invstmt.go 11-28: schema. -/
def InvStatementRequest.ty : Ty := .struct (.tag "INVSTMTTRNRQ".toList) InvStatementRequest.fields
/-- invstmt.go 11-28: conversion to a value of the schema. -/
def InvStatementRequest.toDen (x : InvStatementRequest) : InvStatementRequest.ty.Den :=
  ((), x.TrnUID, x.CltCookie, x.TAN, InvAcct.toDen x.InvAcctFrom, x.DtStart, x.DtEnd, x.Include, x.IncludeOO, x.PosDtAsOf, x.IncludePos, x.IncludeBalance, x.Include401K, x.Include401KBal, x.IncludeTranImage, ())
/-- invstmt.go 11-28: conversion from a value of the schema. -/
def InvStatementRequest.ofDen (d : InvStatementRequest.ty.Den) : InvStatementRequest :=
  ⟨d.2.1, d.2.2.1, d.2.2.2.1, InvAcct.ofDen d.2.2.2.2.1, d.2.2.2.2.2.1, d.2.2.2.2.2.2.1, d.2.2.2.2.2.2.2.1, d.2.2.2.2.2.2.2.2.1, d.2.2.2.2.2.2.2.2.2.1, d.2.2.2.2.2.2.2.2.2.2.1, d.2.2.2.2.2.2.2.2.2.2.2.1, d.2.2.2.2.2.2.2.2.2.2.2.2.1, d.2.2.2.2.2.2.2.2.2.2.2.2.2.1, d.2.2.2.2.2.2.2.2.2.2.2.2.2.2.1⟩
@[simp] theorem InvStatementRequest.ofDen_toDen (x : InvStatementRequest) : InvStatementRequest.ofDen (InvStatementRequest.toDen x) = x := by
  simp [InvStatementRequest.toDen, InvStatementRequest.ofDen]
theorem InvStatementRequest.toDen_ofDen (d : InvStatementRequest.ty.Den) : InvStatementRequest.toDen (InvStatementRequest.ofDen d) = d :=
  Prod.ext rfl (Prod.ext rfl (Prod.ext rfl (Prod.ext rfl (Prod.ext (InvAcct.toDen_ofDen _) (Prod.ext rfl (Prod.ext rfl (Prod.ext rfl (Prod.ext rfl (Prod.ext rfl (Prod.ext rfl (Prod.ext rfl (Prod.ext rfl (Prod.ext rfl (Prod.ext rfl (rfl)))))))))))))))

/-- invstmt.go 54-62 -/
def InvTran.fields : Fields :=
  .field [] "FITID".toList false (.leaf .str) <|
  .field [] "SRVRTID".toList true (.leaf .str) <|
  .field [] "DTTRADE".toList false (.leaf .date) <|
  .field [] "DTSETTLE".toList true (.ptr (.leaf .date)) <|
  .field [] "REVERSALFITID".toList true (.leaf .str) <|
  .field [] "MEMO".toList true (.leaf .str) <|
  .nil
/-- invstmt.go 54-62: schema. -/
def InvTran.ty : Ty := .struct (.tag "INVTRAN".toList) InvTran.fields
/-- invstmt.go 54-62: conversion to a value of the schema. -/
def InvTran.toDen (x : InvTran) : InvTran.ty.Den :=
  ((), x.FiTID, x.SrvrTID, x.DtTrade, x.DtSettle, x.ReversalFiTID, x.Memo, ())
/-- invstmt.go 54-62: conversion from a value of the schema. -/
def InvTran.ofDen (d : InvTran.ty.Den) : InvTran :=
  ⟨d.2.1, d.2.2.1, d.2.2.2.1, d.2.2.2.2.1, d.2.2.2.2.2.1, d.2.2.2.2.2.2.1⟩
@[simp] theorem InvTran.ofDen_toDen (x : InvTran) : InvTran.ofDen (InvTran.toDen x) = x := by
  simp [InvTran.toDen, InvTran.ofDen]
theorem InvTran.toDen_ofDen (d : InvTran.ty.Den) : InvTran.toDen (InvTran.ofDen d) = d :=
  Prod.ext rfl (Prod.ext rfl (Prod.ext rfl (Prod.ext rfl (Prod.ext rfl (Prod.ext rfl (Prod.ext rfl (rfl)))))))

/-- invstmt.go 66-91 -/
def InvBuy.fields : Fields :=
  .field [] "INVTRAN".toList false InvTran.ty <|
  .field [] "SECID".toList false SecurityID.ty <|
  .field [] "UNITS".toList false (.leaf .amount) <|
  .field [] "UNITPRICE".toList false (.leaf .amount) <|
  .field [] "MARKUP".toList true (.leaf .amount) <|
  .field [] "COMMISSION".toList true (.leaf .amount) <|
  .field [] "TAXES".toList true (.leaf .amount) <|
  .field [] "FEES".toList true (.leaf .amount) <|
  .field [] "LOAD".toList true (.leaf .amount) <|
  .field [] "TOTAL".toList false (.leaf .amount) <|
  .field [] "CURRENCY".toList true Currency.ty <|
  .field [] "ORIGCURRENCY".toList true Currency.ty <|
  .field [] "SUBACCTSEC".toList false (.leaf (.enum enumSubAcctType)) <|
  .field [] "SUBACCTFUND".toList false (.leaf (.enum enumSubAcctType)) <|
  .field [] "LOANID".toList true (.leaf .str) <|
  .field [] "LOANPRINCIPAL".toList true (.leaf .amount) <|
  .field [] "LOANINTEREST".toList true (.leaf .amount) <|
  .field [] "INV401KSOURCE".toList true (.leaf (.enum enumInv401kSource)) <|
  .field [] "DTPAYROLL".toList true (.ptr (.leaf .date)) <|
  .field [] "PRIORYEARCONTRIB".toList true (.leaf .bool) <|
  .nil
/-- invstmt.go 66-91: schema. -/
def InvBuy.ty : Ty := .struct (.tag "INVBUY".toList) InvBuy.fields
/-- invstmt.go 66-91: conversion to a value of the schema. -/
def InvBuy.toDen (x : InvBuy) : InvBuy.ty.Den :=
  ((), InvTran.toDen x.InvTran, SecurityID.toDen x.SecID, x.Units, x.UnitPrice, x.Markup, x.Commission, x.Taxes, x.Fees, x.Load, x.Total, Currency.toDen x.Currency, Currency.toDen x.OrigCurrency, x.SubAcctSec, x.SubAcctFund, x.LoanID, x.LoanPrincipal, x.LoanInterest, x.Inv401kSource, x.DtPayroll, x.PriorYearContrib, ())
/-- invstmt.go 66-91: conversion from a value of the schema. -/
def InvBuy.ofDen (d : InvBuy.ty.Den) : InvBuy :=
  ⟨InvTran.ofDen d.2.1, SecurityID.ofDen d.2.2.1, d.2.2.2.1, d.2.2.2.2.1, d.2.2.2.2.2.1, d.2.2.2.2.2.2.1, d.2.2.2.2.2.2.2.1, d.2.2.2.2.2.2.2.2.1, d.2.2.2.2.2.2.2.2.2.1, d.2.2.2.2.2.2.2.2.2.2.1, Currency.ofDen d.2.2.2.2.2.2.2.2.2.2.2.1, Currency.ofDen d.2.2.2.2.2.2.2.2.2.2.2.2.1, d.2.2.2.2.2.2.2.2.2.2.2.2.2.1, d.2.2.2.2.2.2.2.2.2.2.2.2.2.2.1, d.2.2.2.2.2.2.2.2.2.2.2.2.2.2.2.1, d.2.2.2.2.2.2.2.2.2.2.2.2.2.2.2.2.1, d.2.2.2.2.2.2.2.2.2.2.2.2.2.2.2.2.2.1, d.2.2.2.2.2.2.2.2.2.2.2.2.2.2.2.2.2.2.1, d.2.2.2.2.2.2.2.2.2.2.2.2.2.2.2.2.2.2.2.1, d.2.2.2.2.2.2.2.2.2.2.2.2.2.2.2.2.2.2.2.2.1⟩
@[simp] theorem InvBuy.ofDen_toDen (x : InvBuy) : InvBuy.ofDen (InvBuy.toDen x) = x := by
  simp [InvBuy.toDen, InvBuy.ofDen]
theorem InvBuy.toDen_ofDen (d : InvBuy.ty.Den) : InvBuy.toDen (InvBuy.ofDen d) = d :=
  Prod.ext rfl (Prod.ext (InvTran.toDen_ofDen _) (Prod.ext (SecurityID.toDen_ofDen _) (Prod.ext rfl (Prod.ext rfl (Prod.ext rfl (Prod.ext rfl (Prod.ext rfl (Prod.ext rfl (Prod.ext rfl (Prod.ext rfl (Prod.ext (Currency.toDen_ofDen _) (Prod.ext (Currency.toDen_ofDen _) (Prod.ext rfl (Prod.ext rfl (Prod.ext rfl (Prod.ext rfl (Prod.ext rfl (Prod.ext rfl (Prod.ext rfl (Prod.ext rfl (rfl)))))))))))))))))))))

/-- invstmt.go 95-120 -/
def InvSell.fields : Fields :=
  .field [] "INVTRAN".toList false InvTran.ty <|
  .field [] "SECID".toList false SecurityID.ty <|
  .field [] "UNITS".toList false (.leaf .amount) <|
  .field [] "UNITPRICE".toList false (.leaf .amount) <|
  .field [] "MARKDOWN".toList true (.leaf .amount) <|
  .field [] "COMMISSION".toList true (.leaf .amount) <|
  .field [] "TAXES".toList true (.leaf .amount) <|
  .field [] "FEES".toList true (.leaf .amount) <|
  .field [] "LOAD".toList true (.leaf .amount) <|
  .field [] "WITHHOLDING".toList true (.leaf .amount) <|
  .field [] "TAXEXEMPT".toList true (.leaf .bool) <|
  .field [] "TOTAL".toList false (.leaf .amount) <|
  .field [] "GAIN".toList true (.leaf .amount) <|
  .field [] "CURRENCY".toList true Currency.ty <|
  .field [] "ORIGCURRENCY".toList true Currency.ty <|
  .field [] "SUBACCTSEC".toList false (.leaf (.enum enumSubAcctType)) <|
  .field [] "SUBACCTFUND".toList false (.leaf (.enum enumSubAcctType)) <|
  .field [] "LOANID".toList true (.leaf .str) <|
  .field [] "STATEWITHHOLDING".toList true (.leaf .amount) <|
  .field [] "PENALTY".toList true (.leaf .amount) <|
  .field [] "INV401KSOURCE".toList true (.leaf (.enum enumInv401kSource)) <|
  .nil
/-- invstmt.go 95-120: schema. -/
def InvSell.ty : Ty := .struct (.tag "INVSELL".toList) InvSell.fields
/-- invstmt.go 95-120: conversion to a value of the schema. -/
def InvSell.toDen (x : InvSell) : InvSell.ty.Den :=
  ((), InvTran.toDen x.InvTran, SecurityID.toDen x.SecID, x.Units, x.UnitPrice, x.Markdown, x.Commission, x.Taxes, x.Fees, x.Load, x.Withholding, x.TaxExempt, x.Total, x.Gain, Currency.toDen x.Currency, Currency.toDen x.OrigCurrency, x.SubAcctSec, x.SubAcctFund, x.LoanID, x.StateWithholding, x.Penalty, x.Inv401kSource, ())
/-- invstmt.go 95-120: conversion from a value of the schema. -/
def InvSell.ofDen (d : InvSell.ty.Den) : InvSell :=
  ⟨InvTran.ofDen d.2.1, SecurityID.ofDen d.2.2.1, d.2.2.2.1, d.2.2.2.2.1, d.2.2.2.2.2.1, d.2.2.2.2.2.2.1, d.2.2.2.2.2.2.2.1, d.2.2.2.2.2.2.2.2.1, d.2.2.2.2.2.2.2.2.2.1, d.2.2.2.2.2.2.2.2.2.2.1, d.2.2.2.2.2.2.2.2.2.2.2.1, d.2.2.2.2.2.2.2.2.2.2.2.2.1, d.2.2.2.2.2.2.2.2.2.2.2.2.2.1, Currency.ofDen d.2.2.2.2.2.2.2.2.2.2.2.2.2.2.1, Currency.ofDen d.2.2.2.2.2.2.2.2.2.2.2.2.2.2.2.1, d.2.2.2.2.2.2.2.2.2.2.2.2.2.2.2.2.1, d.2.2.2.2.2.2.2.2.2.2.2.2.2.2.2.2.2.1, d.2.2.2.2.2.2.2.2.2.2.2.2.2.2.2.2.2.2.1, d.2.2.2.2.2.2.2.2.2.2.2.2.2.2.2.2.2.2.2.1, d.2.2.2.2.2.2.2.2.2.2.2.2.2.2.2.2.2.2.2.2.1, d.2.2.2.2.2.2.2.2.2.2.2.2.2.2.2.2.2.2.2.2.2.1⟩
@[simp] theorem InvSell.ofDen_toDen (x : InvSell) : InvSell.ofDen (InvSell.toDen x) = x := by
  simp [InvSell.toDen, InvSell.ofDen]
theorem InvSell.toDen_ofDen (d : InvSell.ty.Den) : InvSell.toDen (InvSell.ofDen d) = d :=
  Prod.ext rfl (Prod.ext (InvTran.toDen_ofDen _) (Prod.ext (SecurityID.toDen_ofDen _) (Prod.ext rfl (Prod.ext rfl (Prod.ext rfl (Prod.ext rfl (Prod.ext rfl (Prod.ext rfl (Prod.ext rfl (Prod.ext rfl (Prod.ext rfl (Prod.ext rfl (Prod.ext rfl (Prod.ext (Currency.toDen_ofDen _) (Prod.ext (Currency.toDen_ofDen _) (Prod.ext rfl (Prod.ext rfl (Prod.ext rfl (Prod.ext rfl (Prod.ext rfl (Prod.ext rfl (rfl))))))))))))))))))))))

/-- invstmt.go 123-127 -/
def BuyDebt.fields : Fields :=
  .field [] "INVBUY".toList false InvBuy.ty <|
  .field [] "ACCRDINT".toList true (.leaf .amount) <|
  .nil
/-- invstmt.go 123-127: schema. -/
def BuyDebt.ty : Ty := .struct (.tag "BUYDEBT".toList) BuyDebt.fields
/-- invstmt.go 123-127: conversion to a value of the schema. -/
def BuyDebt.toDen (x : BuyDebt) : BuyDebt.ty.Den :=
  ((), InvBuy.toDen x.InvBuy, x.AccrdInt, ())
/-- invstmt.go 123-127: conversion from a value of the schema. -/
def BuyDebt.ofDen (d : BuyDebt.ty.Den) : BuyDebt :=
  ⟨InvBuy.ofDen d.2.1, d.2.2.1⟩
@[simp] theorem BuyDebt.ofDen_toDen (x : BuyDebt) : BuyDebt.ofDen (BuyDebt.toDen x) = x := by
  simp [BuyDebt.toDen, BuyDebt.ofDen]
theorem BuyDebt.toDen_ofDen (d : BuyDebt.ty.Den) : BuyDebt.toDen (BuyDebt.ofDen d) = d :=
  Prod.ext rfl (Prod.ext (InvBuy.toDen_ofDen _) (Prod.ext rfl (rfl)))

/-- invstmt.go 139-144 -/
def BuyMF.fields : Fields :=
  .field [] "INVBUY".toList false InvBuy.ty <|
  .field [] "BUYTYPE".toList false (.leaf (.enum enumBuyType)) <|
  .field [] "RELFITID".toList true (.leaf .str) <|
  .nil
/-- invstmt.go 139-144: schema. -/
def BuyMF.ty : Ty := .struct (.tag "BUYMF".toList) BuyMF.fields
/-- invstmt.go 139-144: conversion to a value of the schema. -/
def BuyMF.toDen (x : BuyMF) : BuyMF.ty.Den :=
  ((), InvBuy.toDen x.InvBuy, x.BuyType, x.RelFiTID, ())
/-- invstmt.go 139-144: conversion from a value of the schema. -/
def BuyMF.ofDen (d : BuyMF.ty.Den) : BuyMF :=
  ⟨InvBuy.ofDen d.2.1, d.2.2.1, d.2.2.2.1⟩
@[simp] theorem BuyMF.ofDen_toDen (x : BuyMF) : BuyMF.ofDen (BuyMF.toDen x) = x := by
  simp [BuyMF.toDen, BuyMF.ofDen]
theorem BuyMF.toDen_ofDen (d : BuyMF.ty.Den) : BuyMF.toDen (BuyMF.ofDen d) = d :=
  Prod.ext rfl (Prod.ext (InvBuy.toDen_ofDen _) (Prod.ext rfl (Prod.ext rfl (rfl))))

/-- invstmt.go 156-161 -/
def BuyOpt.fields : Fields :=
  .field [] "INVBUY".toList false InvBuy.ty <|
  .field [] "OPTBUYTYPE".toList false (.leaf (.enum enumOptBuyType)) <|
  .field [] "SHPERCTRCT".toList false (.leaf .int) <|
  .nil
/-- invstmt.go 156-161: schema. -/
def BuyOpt.ty : Ty := .struct (.tag "BUYOPT".toList) BuyOpt.fields
/-- invstmt.go 156-161: conversion to a value of the schema. -/
def BuyOpt.toDen (x : BuyOpt) : BuyOpt.ty.Den :=
  ((), InvBuy.toDen x.InvBuy, x.OptBuyType, x.ShPerCtrct, ())
/-- invstmt.go 156-161: conversion from a value of the schema. -/
def BuyOpt.ofDen (d : BuyOpt.ty.Den) : BuyOpt :=
  ⟨InvBuy.ofDen d.2.1, d.2.2.1, d.2.2.2.1⟩
@[simp] theorem BuyOpt.ofDen_toDen (x : BuyOpt) : BuyOpt.ofDen (BuyOpt.toDen x) = x := by
  simp [BuyOpt.toDen, BuyOpt.ofDen]
theorem BuyOpt.toDen_ofDen (d : BuyOpt.ty.Den) : BuyOpt.toDen (BuyOpt.ofDen d) = d :=
  Prod.ext rfl (Prod.ext (InvBuy.toDen_ofDen _) (Prod.ext rfl (Prod.ext rfl (rfl))))

/-- invstmt.go 174-177 -/
def BuyOther.fields : Fields :=
  .field [] "INVBUY".toList false InvBuy.ty <|
  .nil
/-- invstmt.go 174-177: schema. -/
def BuyOther.ty : Ty := .struct (.tag "BUYOTHER".toList) BuyOther.fields
/-- invstmt.go 174-177: conversion to a value of the schema. -/
def BuyOther.toDen (x : BuyOther) : BuyOther.ty.Den :=
  ((), InvBuy.toDen x.InvBuy, ())
/-- invstmt.go 174-177: conversion from a value of the schema. -/
def BuyOther.ofDen (d : BuyOther.ty.Den) : BuyOther :=
  ⟨InvBuy.ofDen d.2.1⟩
@[simp] theorem BuyOther.ofDen_toDen (x : BuyOther) : BuyOther.ofDen (BuyOther.toDen x) = x := by
  simp [BuyOther.toDen, BuyOther.ofDen]
theorem BuyOther.toDen_ofDen (d : BuyOther.ty.Den) : BuyOther.toDen (BuyOther.ofDen d) = d :=
  Prod.ext rfl (Prod.ext (InvBuy.toDen_ofDen _) (rfl))

/-- invstmt.go 189-193 -/
def BuyStock.fields : Fields :=
  .field [] "INVBUY".toList false InvBuy.ty <|
  .field [] "BUYTYPE".toList false (.leaf (.enum enumBuyType)) <|
  .nil
/-- invstmt.go 189-193: schema. -/
def BuyStock.ty : Ty := .struct (.tag "BUYSTOCK".toList) BuyStock.fields
/-- invstmt.go 189-193: conversion to a value of the schema. -/
def BuyStock.toDen (x : BuyStock) : BuyStock.ty.Den :=
  ((), InvBuy.toDen x.InvBuy, x.BuyType, ())
/-- invstmt.go 189-193: conversion from a value of the schema. -/
def BuyStock.ofDen (d : BuyStock.ty.Den) : BuyStock :=
  ⟨InvBuy.ofDen d.2.1, d.2.2.1⟩
@[simp] theorem BuyStock.ofDen_toDen (x : BuyStock) : BuyStock.ofDen (BuyStock.toDen x) = x := by
  simp [BuyStock.toDen, BuyStock.ofDen]
theorem BuyStock.toDen_ofDen (d : BuyStock.ty.Den) : BuyStock.toDen (BuyStock.ofDen d) = d :=
  Prod.ext rfl (Prod.ext (InvBuy.toDen_ofDen _) (Prod.ext rfl (rfl)))

/-- invstmt.go 205-215 -/
def ClosureOpt.fields : Fields :=
  .field [] "INVTRAN".toList false InvTran.ty <|
  .field [] "SECID".toList false SecurityID.ty <|
  .field [] "OPTACTION".toList false (.leaf (.enum enumOptAction)) <|
  .field [] "UNITS".toList false (.leaf .amount) <|
  .field [] "SHPERCTRCT".toList false (.leaf .int) <|
  .field [] "SUBACCTSEC".toList false (.leaf (.enum enumSubAcctType)) <|
  .field [] "RELFITID".toList true (.leaf .str) <|
  .field [] "GAIN".toList true (.leaf .amount) <|
  .nil
/-- invstmt.go 205-215: schema. -/
def ClosureOpt.ty : Ty := .struct (.tag "CLOSUREOPT".toList) ClosureOpt.fields
/-- invstmt.go 205-215: conversion to a value of the schema. -/
def ClosureOpt.toDen (x : ClosureOpt) : ClosureOpt.ty.Den :=
  ((), InvTran.toDen x.InvTran, SecurityID.toDen x.SecID, x.OptAction, x.Units, x.ShPerCtrct, x.SubAcctSec, x.RelFiTID, x.Gain, ())
/-- invstmt.go 205-215: conversion from a value of the schema. -/
def ClosureOpt.ofDen (d : ClosureOpt.ty.Den) : ClosureOpt :=
  ⟨InvTran.ofDen d.2.1, SecurityID.ofDen d.2.2.1, d.2.2.2.1, d.2.2.2.2.1, d.2.2.2.2.2.1, d.2.2.2.2.2.2.1, d.2.2.2.2.2.2.2.1, d.2.2.2.2.2.2.2.2.1⟩
@[simp] theorem ClosureOpt.ofDen_toDen (x : ClosureOpt) : ClosureOpt.ofDen (ClosureOpt.toDen x) = x := by
  simp [ClosureOpt.toDen, ClosureOpt.ofDen]
theorem ClosureOpt.toDen_ofDen (d : ClosureOpt.ty.Den) : ClosureOpt.toDen (ClosureOpt.ofDen d) = d :=
  Prod.ext rfl (Prod.ext (InvTran.toDen_ofDen _) (Prod.ext (SecurityID.toDen_ofDen _) (Prod.ext rfl (Prod.ext rfl (Prod.ext rfl (Prod.ext rfl (Prod.ext rfl (Prod.ext rfl (rfl)))))))))

/-- invstmt.go 228-241 -/
def Income.fields : Fields :=
  .field [] "INVTRAN".toList false InvTran.ty <|
  .field [] "SECID".toList false SecurityID.ty <|
  .field [] "INCOMETYPE".toList false (.leaf (.enum enumIncomeType)) <|
  .field [] "TOTAL".toList false (.leaf .amount) <|
  .field [] "SUBACCTSEC".toList false (.leaf (.enum enumSubAcctType)) <|
  .field [] "SUBACCTFUND".toList false (.leaf (.enum enumSubAcctType)) <|
  .field [] "TAXEXEMPT".toList true (.leaf .bool) <|
  .field [] "WITHHOLDING".toList true (.leaf .amount) <|
  .field [] "CURRENCY".toList true Currency.ty <|
  .field [] "ORIGCURRENCY".toList true Currency.ty <|
  .field [] "INV401KSOURCE".toList true (.leaf (.enum enumInv401kSource)) <|
  .nil
/-- invstmt.go 228-241: schema. -/
def Income.ty : Ty := .struct (.tag "INCOME".toList) Income.fields
/-- invstmt.go 228-241: conversion to a value of the schema. -/
def Income.toDen (x : Income) : Income.ty.Den :=
  ((), InvTran.toDen x.InvTran, SecurityID.toDen x.SecID, x.IncomeType, x.Total, x.SubAcctSec, x.SubAcctFund, x.TaxExempt, x.Withholding, Currency.toDen x.Currency, Currency.toDen x.OrigCurrency, x.Inv401kSource, ())
/-- invstmt.go 228-241: conversion from a value of the schema. -/
def Income.ofDen (d : Income.ty.Den) : Income :=
  ⟨InvTran.ofDen d.2.1, SecurityID.ofDen d.2.2.1, d.2.2.2.1, d.2.2.2.2.1, d.2.2.2.2.2.1, d.2.2.2.2.2.2.1, d.2.2.2.2.2.2.2.1, d.2.2.2.2.2.2.2.2.1, Currency.ofDen d.2.2.2.2.2.2.2.2.2.1, Currency.ofDen d.2.2.2.2.2.2.2.2.2.2.1, d.2.2.2.2.2.2.2.2.2.2.2.1⟩
@[simp] theorem Income.ofDen_toDen (x : Income) : Income.ofDen (Income.toDen x) = x := by
  simp [Income.toDen, Income.ofDen]
theorem Income.toDen_ofDen (d : Income.ty.Den) : Income.toDen (Income.ofDen d) = d :=
  Prod.ext rfl (Prod.ext (InvTran.toDen_ofDen _) (Prod.ext (SecurityID.toDen_ofDen _) (Prod.ext rfl (Prod.ext rfl (Prod.ext rfl (Prod.ext rfl (Prod.ext rfl (Prod.ext rfl (Prod.ext (Currency.toDen_ofDen _) (Prod.ext (Currency.toDen_ofDen _) (Prod.ext rfl (rfl))))))))))))

/-- invstmt.go 254-264 -/
def InvExpense.fields : Fields :=
  .field [] "INVTRAN".toList false InvTran.ty <|
  .field [] "SECID".toList false SecurityID.ty <|
  .field [] "TOTAL".toList false (.leaf .amount) <|
  .field [] "SUBACCTSEC".toList false (.leaf (.enum enumSubAcctType)) <|
  .field [] "SUBACCTFUND".toList false (.leaf (.enum enumSubAcctType)) <|
  .field [] "CURRENCY".toList true Currency.ty <|
  .field [] "ORIGCURRENCY".toList true Currency.ty <|
  .field [] "INV401KSOURCE".toList true (.leaf (.enum enumInv401kSource)) <|
  .nil
/-- invstmt.go 254-264: schema. -/
def InvExpense.ty : Ty := .struct (.tag "INVEXPENSE".toList) InvExpense.fields
/-- invstmt.go 254-264: conversion to a value of the schema. -/
def InvExpense.toDen (x : InvExpense) : InvExpense.ty.Den :=
  ((), InvTran.toDen x.InvTran, SecurityID.toDen x.SecID, x.Total, x.SubAcctSec, x.SubAcctFund, Currency.toDen x.Currency, Currency.toDen x.OrigCurrency, x.Inv401kSource, ())
/-- invstmt.go 254-264: conversion from a value of the schema. -/
def InvExpense.ofDen (d : InvExpense.ty.Den) : InvExpense :=
  ⟨InvTran.ofDen d.2.1, SecurityID.ofDen d.2.2.1, d.2.2.2.1, d.2.2.2.2.1, d.2.2.2.2.2.1, Currency.ofDen d.2.2.2.2.2.2.1, Currency.ofDen d.2.2.2.2.2.2.2.1, d.2.2.2.2.2.2.2.2.1⟩
@[simp] theorem InvExpense.ofDen_toDen (x : InvExpense) : InvExpense.ofDen (InvExpense.toDen x) = x := by
  simp [InvExpense.toDen, InvExpense.ofDen]
theorem InvExpense.toDen_ofDen (d : InvExpense.ty.Den) : InvExpense.toDen (InvExpense.ofDen d) = d :=
  Prod.ext rfl (Prod.ext (InvTran.toDen_ofDen _) (Prod.ext (SecurityID.toDen_ofDen _) (Prod.ext rfl (Prod.ext rfl (Prod.ext rfl (Prod.ext (Currency.toDen_ofDen _) (Prod.ext (Currency.toDen_ofDen _) (Prod.ext rfl (rfl)))))))))

/-- invstmt.go 277-283 -/
def JrnlFund.fields : Fields :=
  .field [] "INVTRAN".toList false InvTran.ty <|
  .field [] "TOTAL".toList false (.leaf .amount) <|
  .field [] "SUBACCTFROM".toList false (.leaf (.enum enumSubAcctType)) <|
  .field [] "SUBACCTTO".toList false (.leaf (.enum enumSubAcctType)) <|
  .nil
/-- invstmt.go 277-283: schema. -/
def JrnlFund.ty : Ty := .struct (.tag "JRNLFUND".toList) JrnlFund.fields
/-- invstmt.go 277-283: conversion to a value of the schema. -/
def JrnlFund.toDen (x : JrnlFund) : JrnlFund.ty.Den :=
  ((), InvTran.toDen x.InvTran, x.Total, x.SubAcctFrom, x.SubAcctTo, ())
/-- invstmt.go 277-283: conversion from a value of the schema. -/
def JrnlFund.ofDen (d : JrnlFund.ty.Den) : JrnlFund :=
  ⟨InvTran.ofDen d.2.1, d.2.2.1, d.2.2.2.1, d.2.2.2.2.1⟩
@[simp] theorem JrnlFund.ofDen_toDen (x : JrnlFund) : JrnlFund.ofDen (JrnlFund.toDen x) = x := by
  simp [JrnlFund.toDen, JrnlFund.ofDen]
theorem JrnlFund.toDen_ofDen (d : JrnlFund.ty.Den) : JrnlFund.toDen (JrnlFund.ofDen d) = d :=
  Prod.ext rfl (Prod.ext (InvTran.toDen_ofDen _) (Prod.ext rfl (Prod.ext rfl (Prod.ext rfl (rfl)))))

/-- invstmt.go 296-303 -/
def JrnlSec.fields : Fields :=
  .field [] "INVTRAN".toList false InvTran.ty <|
  .field [] "SECID".toList false SecurityID.ty <|
  .field [] "SUBACCTFROM".toList false (.leaf (.enum enumSubAcctType)) <|
  .field [] "SUBACCTTO".toList false (.leaf (.enum enumSubAcctType)) <|
  .field [] "UNITS".toList false (.leaf .amount) <|
  .nil
/-- invstmt.go 296-303: schema. -/
def JrnlSec.ty : Ty := .struct (.tag "JRNLSEC".toList) JrnlSec.fields
/-- invstmt.go 296-303: conversion to a value of the schema. -/
def JrnlSec.toDen (x : JrnlSec) : JrnlSec.ty.Den :=
  ((), InvTran.toDen x.InvTran, SecurityID.toDen x.SecID, x.SubAcctFrom, x.SubAcctTo, x.Units, ())
/-- invstmt.go 296-303: conversion from a value of the schema. -/
def JrnlSec.ofDen (d : JrnlSec.ty.Den) : JrnlSec :=
  ⟨InvTran.ofDen d.2.1, SecurityID.ofDen d.2.2.1, d.2.2.2.1, d.2.2.2.2.1, d.2.2.2.2.2.1⟩
@[simp] theorem JrnlSec.ofDen_toDen (x : JrnlSec) : JrnlSec.ofDen (JrnlSec.toDen x) = x := by
  simp [JrnlSec.toDen, JrnlSec.ofDen]
theorem JrnlSec.toDen_ofDen (d : JrnlSec.ty.Den) : JrnlSec.toDen (JrnlSec.ofDen d) = d :=
  Prod.ext rfl (Prod.ext (InvTran.toDen_ofDen _) (Prod.ext (SecurityID.toDen_ofDen _) (Prod.ext rfl (Prod.ext rfl (Prod.ext rfl (rfl))))))

/-- invstmt.go 315-322 -/
def MarginInterest.fields : Fields :=
  .field [] "INVTRAN".toList false InvTran.ty <|
  .field [] "TOTAL".toList false (.leaf .amount) <|
  .field [] "SUBACCTFUND".toList false (.leaf (.enum enumSubAcctType)) <|
  .field [] "CURRENCY".toList true Currency.ty <|
  .field [] "ORIGCURRENCY".toList true Currency.ty <|
  .nil
/-- invstmt.go 315-322: schema. -/
def MarginInterest.ty : Ty := .struct (.tag "MARGININTEREST".toList) MarginInterest.fields
/-- invstmt.go 315-322: conversion to a value of the schema. -/
def MarginInterest.toDen (x : MarginInterest) : MarginInterest.ty.Den :=
  ((), InvTran.toDen x.InvTran, x.Total, x.SubAcctFund, Currency.toDen x.Currency, Currency.toDen x.OrigCurrency, ())
/-- invstmt.go 315-322: conversion from a value of the schema. -/
def MarginInterest.ofDen (d : MarginInterest.ty.Den) : MarginInterest :=
  ⟨InvTran.ofDen d.2.1, d.2.2.1, d.2.2.2.1, Currency.ofDen d.2.2.2.2.1, Currency.ofDen d.2.2.2.2.2.1⟩
@[simp] theorem MarginInterest.ofDen_toDen (x : MarginInterest) : MarginInterest.ofDen (MarginInterest.toDen x) = x := by
  simp [MarginInterest.toDen, MarginInterest.ofDen]
theorem MarginInterest.toDen_ofDen (d : MarginInterest.ty.Den) : MarginInterest.toDen (MarginInterest.ofDen d) = d :=
  Prod.ext rfl (Prod.ext (InvTran.toDen_ofDen _) (Prod.ext rfl (Prod.ext rfl (Prod.ext (Currency.toDen_ofDen _) (Prod.ext (Currency.toDen_ofDen _) (rfl))))))

/-- invstmt.go 336-353 -/
def Reinvest.fields : Fields :=
  .field [] "INVTRAN".toList false InvTran.ty <|
  .field [] "SECID".toList false SecurityID.ty <|
  .field [] "INCOMETYPE".toList false (.leaf (.enum enumIncomeType)) <|
  .field [] "TOTAL".toList false (.leaf .amount) <|
  .field [] "SUBACCTSEC".toList false (.leaf (.enum enumSubAcctType)) <|
  .field [] "UNITS".toList false (.leaf .amount) <|
  .field [] "UNITPRICE".toList false (.leaf .amount) <|
  .field [] "COMMISSION".toList true (.leaf .amount) <|
  .field [] "TAXES".toList true (.leaf .amount) <|
  .field [] "FEES".toList true (.leaf .amount) <|
  .field [] "LOAD".toList true (.leaf .amount) <|
  .field [] "TAXEXEMPT".toList true (.leaf .bool) <|
  .field [] "CURRENCY".toList true Currency.ty <|
  .field [] "ORIGCURRENCY".toList true Currency.ty <|
  .field [] "INV401KSOURCE".toList true (.leaf (.enum enumInv401kSource)) <|
  .nil
/-- invstmt.go 336-353: schema. -/
def Reinvest.ty : Ty := .struct (.tag "REINVEST".toList) Reinvest.fields
/-- invstmt.go 336-353: conversion to a value of the schema. -/
def Reinvest.toDen (x : Reinvest) : Reinvest.ty.Den :=
  ((), InvTran.toDen x.InvTran, SecurityID.toDen x.SecID, x.IncomeType, x.Total, x.SubAcctSec, x.Units, x.UnitPrice, x.Commission, x.Taxes, x.Fees, x.Load, x.TaxExempt, Currency.toDen x.Currency, Currency.toDen x.OrigCurrency, x.Inv401kSource, ())
/-- invstmt.go 336-353: conversion from a value of the schema. -/
def Reinvest.ofDen (d : Reinvest.ty.Den) : Reinvest :=
  ⟨InvTran.ofDen d.2.1, SecurityID.ofDen d.2.2.1, d.2.2.2.1, d.2.2.2.2.1, d.2.2.2.2.2.1, d.2.2.2.2.2.2.1, d.2.2.2.2.2.2.2.1, d.2.2.2.2.2.2.2.2.1, d.2.2.2.2.2.2.2.2.2.1, d.2.2.2.2.2.2.2.2.2.2.1, d.2.2.2.2.2.2.2.2.2.2.2.1, d.2.2.2.2.2.2.2.2.2.2.2.2.1, Currency.ofDen d.2.2.2.2.2.2.2.2.2.2.2.2.2.1, Currency.ofDen d.2.2.2.2.2.2.2.2.2.2.2.2.2.2.1, d.2.2.2.2.2.2.2.2.2.2.2.2.2.2.2.1⟩
@[simp] theorem Reinvest.ofDen_toDen (x : Reinvest) : Reinvest.ofDen (Reinvest.toDen x) = x := by
  simp [Reinvest.toDen, Reinvest.ofDen]
theorem Reinvest.toDen_ofDen (d : Reinvest.ty.Den) : Reinvest.toDen (Reinvest.ofDen d) = d :=
  Prod.ext rfl (Prod.ext (InvTran.toDen_ofDen _) (Prod.ext (SecurityID.toDen_ofDen _) (Prod.ext rfl (Prod.ext rfl (Prod.ext rfl (Prod.ext rfl (Prod.ext rfl (Prod.ext rfl (Prod.ext rfl (Prod.ext rfl (Prod.ext rfl (Prod.ext rfl (Prod.ext (Currency.toDen_ofDen _) (Prod.ext (Currency.toDen_ofDen _) (Prod.ext rfl (rfl))))))))))))))))

/-- invstmt.go 366-376 -/
def RetOfCap.fields : Fields :=
  .field [] "INVTRAN".toList false InvTran.ty <|
  .field [] "SECID".toList false SecurityID.ty <|
  .field [] "TOTAL".toList false (.leaf .amount) <|
  .field [] "SUBACCTSEC".toList false (.leaf (.enum enumSubAcctType)) <|
  .field [] "SUBACCTFUND".toList false (.leaf (.enum enumSubAcctType)) <|
  .field [] "CURRENCY".toList true Currency.ty <|
  .field [] "ORIGCURRENCY".toList true Currency.ty <|
  .field [] "INV401KSOURCE".toList true (.leaf (.enum enumInv401kSource)) <|
  .nil
/-- invstmt.go 366-376: schema. -/
def RetOfCap.ty : Ty := .struct (.tag "RETOFCAP".toList) RetOfCap.fields
/-- invstmt.go 366-376: conversion to a value of the schema. -/
def RetOfCap.toDen (x : RetOfCap) : RetOfCap.ty.Den :=
  ((), InvTran.toDen x.InvTran, SecurityID.toDen x.SecID, x.Total, x.SubAcctSec, x.SubAcctFund, Currency.toDen x.Currency, Currency.toDen x.OrigCurrency, x.Inv401kSource, ())
/-- invstmt.go 366-376: conversion from a value of the schema. -/
def RetOfCap.ofDen (d : RetOfCap.ty.Den) : RetOfCap :=
  ⟨InvTran.ofDen d.2.1, SecurityID.ofDen d.2.2.1, d.2.2.2.1, d.2.2.2.2.1, d.2.2.2.2.2.1, Currency.ofDen d.2.2.2.2.2.2.1, Currency.ofDen d.2.2.2.2.2.2.2.1, d.2.2.2.2.2.2.2.2.1⟩
@[simp] theorem RetOfCap.ofDen_toDen (x : RetOfCap) : RetOfCap.ofDen (RetOfCap.toDen x) = x := by
  simp [RetOfCap.toDen, RetOfCap.ofDen]
theorem RetOfCap.toDen_ofDen (d : RetOfCap.ty.Den) : RetOfCap.toDen (RetOfCap.ofDen d) = d :=
  Prod.ext rfl (Prod.ext (InvTran.toDen_ofDen _) (Prod.ext (SecurityID.toDen_ofDen _) (Prod.ext rfl (Prod.ext rfl (Prod.ext rfl (Prod.ext (Currency.toDen_ofDen _) (Prod.ext (Currency.toDen_ofDen _) (Prod.ext rfl (rfl)))))))))

/-- invstmt.go 389-394 -/
def SellDebt.fields : Fields :=
  .field [] "INVSELL".toList false InvSell.ty <|
  .field [] "SELLREASON".toList false (.leaf (.enum enumSellReason)) <|
  .field [] "ACCRDINT".toList true (.leaf .amount) <|
  .nil
/-- invstmt.go 389-394: schema. -/
def SellDebt.ty : Ty := .struct (.tag "SELLDEBT".toList) SellDebt.fields
/-- invstmt.go 389-394: conversion to a value of the schema. -/
def SellDebt.toDen (x : SellDebt) : SellDebt.ty.Den :=
  ((), InvSell.toDen x.InvSell, x.SellReason, x.AccrdInt, ())
/-- invstmt.go 389-394: conversion from a value of the schema. -/
def SellDebt.ofDen (d : SellDebt.ty.Den) : SellDebt :=
  ⟨InvSell.ofDen d.2.1, d.2.2.1, d.2.2.2.1⟩
@[simp] theorem SellDebt.ofDen_toDen (x : SellDebt) : SellDebt.ofDen (SellDebt.toDen x) = x := by
  simp [SellDebt.toDen, SellDebt.ofDen]
theorem SellDebt.toDen_ofDen (d : SellDebt.ty.Den) : SellDebt.toDen (SellDebt.ofDen d) = d :=
  Prod.ext rfl (Prod.ext (InvSell.toDen_ofDen _) (Prod.ext rfl (Prod.ext rfl (rfl))))

/-- invstmt.go 406-412 -/
def SellMF.fields : Fields :=
  .field [] "INVSELL".toList false InvSell.ty <|
  .field [] "SELLTYPE".toList false (.leaf (.enum enumSellType)) <|
  .field [] "AVGCOSTBASIS".toList false (.leaf .amount) <|
  .field [] "RELFITID".toList true (.leaf .str) <|
  .nil
/-- invstmt.go 406-412: schema. -/
def SellMF.ty : Ty := .struct (.tag "SELLMF".toList) SellMF.fields
/-- invstmt.go 406-412: conversion to a value of the schema. -/
def SellMF.toDen (x : SellMF) : SellMF.ty.Den :=
  ((), InvSell.toDen x.InvSell, x.SellType, x.AvgCostBasis, x.RelFiTID, ())
/-- invstmt.go 406-412: conversion from a value of the schema. -/
def SellMF.ofDen (d : SellMF.ty.Den) : SellMF :=
  ⟨InvSell.ofDen d.2.1, d.2.2.1, d.2.2.2.1, d.2.2.2.2.1⟩
@[simp] theorem SellMF.ofDen_toDen (x : SellMF) : SellMF.ofDen (SellMF.toDen x) = x := by
  simp [SellMF.toDen, SellMF.ofDen]
theorem SellMF.toDen_ofDen (d : SellMF.ty.Den) : SellMF.toDen (SellMF.ofDen d) = d :=
  Prod.ext rfl (Prod.ext (InvSell.toDen_ofDen _) (Prod.ext rfl (Prod.ext rfl (Prod.ext rfl (rfl)))))

/-- invstmt.go 426-434 -/
def SellOpt.fields : Fields :=
  .field [] "INVSELL".toList false InvSell.ty <|
  .field [] "OPTSELLTYPE".toList false (.leaf (.enum enumOptSellType)) <|
  .field [] "SHPERCTRCT".toList false (.leaf .int) <|
  .field [] "RELFITID".toList true (.leaf .str) <|
  .field [] "RELTYPE".toList true (.leaf (.enum enumRelType)) <|
  .field [] "SECURED".toList true (.leaf (.enum enumSecured)) <|
  .nil
/-- invstmt.go 426-434: schema. -/
def SellOpt.ty : Ty := .struct (.tag "SELLOPT".toList) SellOpt.fields
/-- invstmt.go 426-434: conversion to a value of the schema. -/
def SellOpt.toDen (x : SellOpt) : SellOpt.ty.Den :=
  ((), InvSell.toDen x.InvSell, x.OptSellType, x.ShPerCtrct, x.RelFiTID, x.RelType, x.Secured, ())
/-- invstmt.go 426-434: conversion from a value of the schema. -/
def SellOpt.ofDen (d : SellOpt.ty.Den) : SellOpt :=
  ⟨InvSell.ofDen d.2.1, d.2.2.1, d.2.2.2.1, d.2.2.2.2.1, d.2.2.2.2.2.1, d.2.2.2.2.2.2.1⟩
@[simp] theorem SellOpt.ofDen_toDen (x : SellOpt) : SellOpt.ofDen (SellOpt.toDen x) = x := by
  simp [SellOpt.toDen, SellOpt.ofDen]
theorem SellOpt.toDen_ofDen (d : SellOpt.ty.Den) : SellOpt.toDen (SellOpt.ofDen d) = d :=
  Prod.ext rfl (Prod.ext (InvSell.toDen_ofDen _) (Prod.ext rfl (Prod.ext rfl (Prod.ext rfl (Prod.ext rfl (Prod.ext rfl (rfl)))))))

/-- invstmt.go 447-450 -/
def SellOther.fields : Fields :=
  .field [] "INVSELL".toList false InvSell.ty <|
  .nil
/-- invstmt.go 447-450: schema. -/
def SellOther.ty : Ty := .struct (.tag "SELLOTHER".toList) SellOther.fields
/-- invstmt.go 447-450: conversion to a value of the schema. -/
def SellOther.toDen (x : SellOther) : SellOther.ty.Den :=
  ((), InvSell.toDen x.InvSell, ())
/-- invstmt.go 447-450: conversion from a value of the schema. -/
def SellOther.ofDen (d : SellOther.ty.Den) : SellOther :=
  ⟨InvSell.ofDen d.2.1⟩
@[simp] theorem SellOther.ofDen_toDen (x : SellOther) : SellOther.ofDen (SellOther.toDen x) = x := by
  simp [SellOther.toDen, SellOther.ofDen]
theorem SellOther.toDen_ofDen (d : SellOther.ty.Den) : SellOther.toDen (SellOther.ofDen d) = d :=
  Prod.ext rfl (Prod.ext (InvSell.toDen_ofDen _) (rfl))

/-- invstmt.go 462-466 -/
def SellStock.fields : Fields :=
  .field [] "INVSELL".toList false InvSell.ty <|
  .field [] "SELLTYPE".toList false (.leaf (.enum enumSellType)) <|
  .nil
/-- invstmt.go 462-466: schema. -/
def SellStock.ty : Ty := .struct (.tag "SELLSTOCK".toList) SellStock.fields
/-- invstmt.go 462-466: conversion to a value of the schema. -/
def SellStock.toDen (x : SellStock) : SellStock.ty.Den :=
  ((), InvSell.toDen x.InvSell, x.SellType, ())
/-- invstmt.go 462-466: conversion from a value of the schema. -/
def SellStock.ofDen (d : SellStock.ty.Den) : SellStock :=
  ⟨InvSell.ofDen d.2.1, d.2.2.1⟩
@[simp] theorem SellStock.ofDen_toDen (x : SellStock) : SellStock.ofDen (SellStock.toDen x) = x := by
  simp [SellStock.toDen, SellStock.ofDen]
theorem SellStock.toDen_ofDen (d : SellStock.ty.Den) : SellStock.toDen (SellStock.ofDen d) = d :=
  Prod.ext rfl (Prod.ext (InvSell.toDen_ofDen _) (Prod.ext rfl (rfl)))

/-- invstmt.go 478-492 -/
def Split.fields : Fields :=
  .field [] "INVTRAN".toList false InvTran.ty <|
  .field [] "SECID".toList false SecurityID.ty <|
  .field [] "SUBACCTSEC".toList false (.leaf (.enum enumSubAcctType)) <|
  .field [] "OLDUNITS".toList false (.leaf .amount) <|
  .field [] "NEWUNITS".toList false (.leaf .amount) <|
  .field [] "NUMERATOR".toList false (.leaf .int) <|
  .field [] "DENOMINATOR".toList false (.leaf .int) <|
  .field [] "CURRENCY".toList true Currency.ty <|
  .field [] "ORIGCURRENCY".toList true Currency.ty <|
  .field [] "FRACCASH".toList true (.leaf .amount) <|
  .field [] "SUBACCTFUND".toList true (.leaf (.enum enumSubAcctType)) <|
  .field [] "INV401KSOURCE".toList true (.leaf (.enum enumInv401kSource)) <|
  .nil
/-- invstmt.go 478-492: schema. -/
def Split.ty : Ty := .struct (.tag "SPLIT".toList) Split.fields
/-- invstmt.go 478-492: conversion to a value of the schema. -/
def Split.toDen (x : Split) : Split.ty.Den :=
  ((), InvTran.toDen x.InvTran, SecurityID.toDen x.SecID, x.SubAcctSec, x.OldUnits, x.NewUnits, x.Numerator, x.Denominator, Currency.toDen x.Currency, Currency.toDen x.OrigCurrency, x.FracCash, x.SubAcctFund, x.Inv401kSource, ())
/-- invstmt.go 478-492: conversion from a value of the schema. -/
def Split.ofDen (d : Split.ty.Den) : Split :=
  ⟨InvTran.ofDen d.2.1, SecurityID.ofDen d.2.2.1, d.2.2.2.1, d.2.2.2.2.1, d.2.2.2.2.2.1, d.2.2.2.2.2.2.1, d.2.2.2.2.2.2.2.1, Currency.ofDen d.2.2.2.2.2.2.2.2.1, Currency.ofDen d.2.2.2.2.2.2.2.2.2.1, d.2.2.2.2.2.2.2.2.2.2.1, d.2.2.2.2.2.2.2.2.2.2.2.1, d.2.2.2.2.2.2.2.2.2.2.2.2.1⟩
@[simp] theorem Split.ofDen_toDen (x : Split) : Split.ofDen (Split.toDen x) = x := by
  simp [Split.toDen, Split.ofDen]
theorem Split.toDen_ofDen (d : Split.ty.Den) : Split.toDen (Split.ofDen d) = d :=
  Prod.ext rfl (Prod.ext (InvTran.toDen_ofDen _) (Prod.ext (SecurityID.toDen_ofDen _) (Prod.ext rfl (Prod.ext rfl (Prod.ext rfl (Prod.ext rfl (Prod.ext rfl (Prod.ext (Currency.toDen_ofDen _) (Prod.ext (Currency.toDen_ofDen _) (Prod.ext rfl (Prod.ext rfl (Prod.ext rfl (rfl)))))))))))))

/-- invstmt.go 504-517 -/
def Transfer.fields : Fields :=
  .field [] "INVTRAN".toList false InvTran.ty <|
  .field [] "SECID".toList false SecurityID.ty <|
  .field [] "SUBACCTSEC".toList false (.leaf (.enum enumSubAcctType)) <|
  .field [] "UNITS".toList false (.leaf .amount) <|
  .field [] "TFERACTION".toList false (.leaf (.enum enumTferAction)) <|
  .field [] "POSTYPE".toList false (.leaf (.enum enumPosType)) <|
  .field [] "INVACCTFROM".toList true InvAcct.ty <|
  .field [] "AVGCOSTBASIS".toList true (.leaf .amount) <|
  .field [] "UNITPRICE".toList true (.leaf .amount) <|
  .field [] "DTPURCHASE".toList true (.ptr (.leaf .date)) <|
  .field [] "INV401KSOURCE".toList true (.leaf (.enum enumInv401kSource)) <|
  .nil
/-- invstmt.go 504-517: schema. -/
def Transfer.ty : Ty := .struct (.tag "TRANSFER".toList) Transfer.fields
/-- invstmt.go 504-517: conversion to a value of the schema. -/
def Transfer.toDen (x : Transfer) : Transfer.ty.Den :=
  ((), InvTran.toDen x.InvTran, SecurityID.toDen x.SecID, x.SubAcctSec, x.Units, x.TferAction, x.PosType, InvAcct.toDen x.InvAcctFrom, x.AvgCostBasis, x.UnitPrice, x.DtPurchase, x.Inv401kSource, ())
/-- invstmt.go 504-517: conversion from a value of the schema. -/
def Transfer.ofDen (d : Transfer.ty.Den) : Transfer :=
  ⟨InvTran.ofDen d.2.1, SecurityID.ofDen d.2.2.1, d.2.2.2.1, d.2.2.2.2.1, d.2.2.2.2.2.1, d.2.2.2.2.2.2.1, InvAcct.ofDen d.2.2.2.2.2.2.2.1, d.2.2.2.2.2.2.2.2.1, d.2.2.2.2.2.2.2.2.2.1, d.2.2.2.2.2.2.2.2.2.2.1, d.2.2.2.2.2.2.2.2.2.2.2.1⟩
@[simp] theorem Transfer.ofDen_toDen (x : Transfer) : Transfer.ofDen (Transfer.toDen x) = x := by
  simp [Transfer.toDen, Transfer.ofDen]
theorem Transfer.toDen_ofDen (d : Transfer.ty.Den) : Transfer.toDen (Transfer.ofDen d) = d :=
  Prod.ext rfl (Prod.ext (InvTran.toDen_ofDen _) (Prod.ext (SecurityID.toDen_ofDen _) (Prod.ext rfl (Prod.ext rfl (Prod.ext rfl (Prod.ext rfl (Prod.ext (InvAcct.toDen_ofDen _) (Prod.ext rfl (Prod.ext rfl (Prod.ext rfl (Prod.ext rfl (rfl))))))))))))

/-- invstmt.go 538-542 -/
def InvBankTransaction.fields : Fields :=
  .field [] "STMTTRN".toList true (.slice Transaction.ty) <|
  .field [] "SUBACCTFUND".toList false (.leaf (.enum enumSubAcctType)) <|
  .nil
/-- invstmt.go 538-542: schema. -/
def InvBankTransaction.ty : Ty := .struct (.tag "INVBANKTRAN".toList) InvBankTransaction.fields
/-- invstmt.go 538-542: conversion to a value of the schema. -/
def InvBankTransaction.toDen (x : InvBankTransaction) : InvBankTransaction.ty.Den :=
  ((), List.map Transaction.toDen x.Transactions, x.SubAcctFund, ())
/-- invstmt.go 538-542: conversion from a value of the schema. -/
def InvBankTransaction.ofDen (d : InvBankTransaction.ty.Den) : InvBankTransaction :=
  ⟨List.map Transaction.ofDen d.2.1, d.2.2.1⟩
@[simp] theorem InvBankTransaction.ofDen_toDen (x : InvBankTransaction) : InvBankTransaction.ofDen (InvBankTransaction.toDen x) = x := by
  simp [InvBankTransaction.toDen, InvBankTransaction.ofDen, Function.comp_def]
theorem InvBankTransaction.toDen_ofDen (d : InvBankTransaction.ty.Den) : InvBankTransaction.toDen (InvBankTransaction.ofDen d) = d :=
  Prod.ext rfl (Prod.ext (listInv Transaction.toDen_ofDen _) (Prod.ext rfl (rfl)))

/-- Concrete types of InvTransaction with the names used to read and write them. -/
def InvTransaction.alts : Alts :=
  .alt "BUYDEBT".toList "BUYDEBT".toList BuyDebt.ty <|
  .alt "BUYMF".toList "BUYMF".toList BuyMF.ty <|
  .alt "BUYOPT".toList "BUYOPT".toList BuyOpt.ty <|
  .alt "BUYOTHER".toList "BUYOTHER".toList BuyOther.ty <|
  .alt "BUYSTOCK".toList "BUYSTOCK".toList BuyStock.ty <|
  .alt "CLOSUREOPT".toList "CLOSUREOPT".toList ClosureOpt.ty <|
  .alt "INCOME".toList "INCOME".toList Income.ty <|
  .alt "INVEXPENSE".toList "INVEXPENSE".toList InvExpense.ty <|
  .alt "JRNLFUND".toList "JRNLFUND".toList JrnlFund.ty <|
  .alt "JRNLSEC".toList "JRNLSEC".toList JrnlSec.ty <|
  .alt "MARGININTEREST".toList "MARGININTEREST".toList MarginInterest.ty <|
  .alt "REINVEST".toList "REINVEST".toList Reinvest.ty <|
  .alt "RETOFCAP".toList "RETOFCAP".toList RetOfCap.ty <|
  .alt "SELLDEBT".toList "SELLDEBT".toList SellDebt.ty <|
  .alt "SELLMF".toList "SELLMF".toList SellMF.ty <|
  .alt "SELLOPT".toList "SELLOPT".toList SellOpt.ty <|
  .alt "SELLOTHER".toList "SELLOTHER".toList SellOther.ty <|
  .alt "SELLSTOCK".toList "SELLSTOCK".toList SellStock.ty <|
  .alt "SPLIT".toList "SPLIT".toList Split.ty <|
  .alt "TRANSFER".toList "TRANSFER".toList Transfer.ty <|
  .nil
/-- invstmt.go 530: the concrete types accepted by the list that holds this interface.: conversion to a value of the schema. -/
def InvTransaction.toDen : InvTransaction → InvTransaction.alts.Den
  | .buyDebt v => .inl (BuyDebt.toDen v)
  | .buyMF v => .inr (.inl (BuyMF.toDen v))
  | .buyOpt v => .inr (.inr (.inl (BuyOpt.toDen v)))
  | .buyOther v => .inr (.inr (.inr (.inl (BuyOther.toDen v))))
  | .buyStock v => .inr (.inr (.inr (.inr (.inl (BuyStock.toDen v)))))
  | .closureOpt v => .inr (.inr (.inr (.inr (.inr (.inl (ClosureOpt.toDen v))))))
  | .income v => .inr (.inr (.inr (.inr (.inr (.inr (.inl (Income.toDen v)))))))
  | .invExpense v => .inr (.inr (.inr (.inr (.inr (.inr (.inr (.inl (InvExpense.toDen v))))))))
  | .jrnlFund v => .inr (.inr (.inr (.inr (.inr (.inr (.inr (.inr (.inl (JrnlFund.toDen v)))))))))
  | .jrnlSec v => .inr (.inr (.inr (.inr (.inr (.inr (.inr (.inr (.inr (.inl (JrnlSec.toDen v))))))))))
  | .marginInterest v => .inr (.inr (.inr (.inr (.inr (.inr (.inr (.inr (.inr (.inr (.inl (MarginInterest.toDen v)))))))))))
  | .reinvest v => .inr (.inr (.inr (.inr (.inr (.inr (.inr (.inr (.inr (.inr (.inr (.inl (Reinvest.toDen v))))))))))))
  | .retOfCap v => .inr (.inr (.inr (.inr (.inr (.inr (.inr (.inr (.inr (.inr (.inr (.inr (.inl (RetOfCap.toDen v)))))))))))))
  | .sellDebt v => .inr (.inr (.inr (.inr (.inr (.inr (.inr (.inr (.inr (.inr (.inr (.inr (.inr (.inl (SellDebt.toDen v))))))))))))))
  | .sellMF v => .inr (.inr (.inr (.inr (.inr (.inr (.inr (.inr (.inr (.inr (.inr (.inr (.inr (.inr (.inl (SellMF.toDen v)))))))))))))))
  | .sellOpt v => .inr (.inr (.inr (.inr (.inr (.inr (.inr (.inr (.inr (.inr (.inr (.inr (.inr (.inr (.inr (.inl (SellOpt.toDen v))))))))))))))))
  | .sellOther v => .inr (.inr (.inr (.inr (.inr (.inr (.inr (.inr (.inr (.inr (.inr (.inr (.inr (.inr (.inr (.inr (.inl (SellOther.toDen v)))))))))))))))))
  | .sellStock v => .inr (.inr (.inr (.inr (.inr (.inr (.inr (.inr (.inr (.inr (.inr (.inr (.inr (.inr (.inr (.inr (.inr (.inl (SellStock.toDen v))))))))))))))))))
  | .split v => .inr (.inr (.inr (.inr (.inr (.inr (.inr (.inr (.inr (.inr (.inr (.inr (.inr (.inr (.inr (.inr (.inr (.inr (.inl (Split.toDen v)))))))))))))))))))
  | .transfer v => .inr (.inr (.inr (.inr (.inr (.inr (.inr (.inr (.inr (.inr (.inr (.inr (.inr (.inr (.inr (.inr (.inr (.inr (.inr (.inl (Transfer.toDen v))))))))))))))))))))
/-- invstmt.go 530: the concrete types accepted by the list that holds this interface.: conversion from a value of the schema. -/
def InvTransaction.ofDen : InvTransaction.alts.Den → InvTransaction
  | .inl v => .buyDebt (BuyDebt.ofDen v)
  | .inr (.inl v) => .buyMF (BuyMF.ofDen v)
  | .inr (.inr (.inl v)) => .buyOpt (BuyOpt.ofDen v)
  | .inr (.inr (.inr (.inl v))) => .buyOther (BuyOther.ofDen v)
  | .inr (.inr (.inr (.inr (.inl v)))) => .buyStock (BuyStock.ofDen v)
  | .inr (.inr (.inr (.inr (.inr (.inl v))))) => .closureOpt (ClosureOpt.ofDen v)
  | .inr (.inr (.inr (.inr (.inr (.inr (.inl v)))))) => .income (Income.ofDen v)
  | .inr (.inr (.inr (.inr (.inr (.inr (.inr (.inl v))))))) => .invExpense (InvExpense.ofDen v)
  | .inr (.inr (.inr (.inr (.inr (.inr (.inr (.inr (.inl v)))))))) => .jrnlFund (JrnlFund.ofDen v)
  | .inr (.inr (.inr (.inr (.inr (.inr (.inr (.inr (.inr (.inl v))))))))) => .jrnlSec (JrnlSec.ofDen v)
  | .inr (.inr (.inr (.inr (.inr (.inr (.inr (.inr (.inr (.inr (.inl v)))))))))) => .marginInterest (MarginInterest.ofDen v)
  | .inr (.inr (.inr (.inr (.inr (.inr (.inr (.inr (.inr (.inr (.inr (.inl v))))))))))) => .reinvest (Reinvest.ofDen v)
  | .inr (.inr (.inr (.inr (.inr (.inr (.inr (.inr (.inr (.inr (.inr (.inr (.inl v)))))))))))) => .retOfCap (RetOfCap.ofDen v)
  | .inr (.inr (.inr (.inr (.inr (.inr (.inr (.inr (.inr (.inr (.inr (.inr (.inr (.inl v))))))))))))) => .sellDebt (SellDebt.ofDen v)
  | .inr (.inr (.inr (.inr (.inr (.inr (.inr (.inr (.inr (.inr (.inr (.inr (.inr (.inr (.inl v)))))))))))))) => .sellMF (SellMF.ofDen v)
  | .inr (.inr (.inr (.inr (.inr (.inr (.inr (.inr (.inr (.inr (.inr (.inr (.inr (.inr (.inr (.inl v))))))))))))))) => .sellOpt (SellOpt.ofDen v)
  | .inr (.inr (.inr (.inr (.inr (.inr (.inr (.inr (.inr (.inr (.inr (.inr (.inr (.inr (.inr (.inr (.inl v)))))))))))))))) => .sellOther (SellOther.ofDen v)
  | .inr (.inr (.inr (.inr (.inr (.inr (.inr (.inr (.inr (.inr (.inr (.inr (.inr (.inr (.inr (.inr (.inr (.inl v))))))))))))))))) => .sellStock (SellStock.ofDen v)
  | .inr (.inr (.inr (.inr (.inr (.inr (.inr (.inr (.inr (.inr (.inr (.inr (.inr (.inr (.inr (.inr (.inr (.inr (.inl v)))))))))))))))))) => .split (Split.ofDen v)
  | .inr (.inr (.inr (.inr (.inr (.inr (.inr (.inr (.inr (.inr (.inr (.inr (.inr (.inr (.inr (.inr (.inr (.inr (.inr (.inl v))))))))))))))))))) => .transfer (Transfer.ofDen v)
@[simp] theorem InvTransaction.ofDen_toDen (x : InvTransaction) : InvTransaction.ofDen (InvTransaction.toDen x) = x := by
  cases x <;> simp [InvTransaction.toDen, InvTransaction.ofDen]
theorem InvTransaction.toDen_ofDen : (d : InvTransaction.alts.Den) → InvTransaction.toDen (InvTransaction.ofDen d) = d
  | .inl v => congrArg Sum.inl (BuyDebt.toDen_ofDen v)
  | .inr (.inl v) => congrArg Sum.inr (congrArg Sum.inl (BuyMF.toDen_ofDen v))
  | .inr (.inr (.inl v)) => congrArg Sum.inr (congrArg Sum.inr (congrArg Sum.inl (BuyOpt.toDen_ofDen v)))
  | .inr (.inr (.inr (.inl v))) => congrArg Sum.inr (congrArg Sum.inr (congrArg Sum.inr (congrArg Sum.inl (BuyOther.toDen_ofDen v))))
  | .inr (.inr (.inr (.inr (.inl v)))) => congrArg Sum.inr (congrArg Sum.inr (congrArg Sum.inr (congrArg Sum.inr (congrArg Sum.inl (BuyStock.toDen_ofDen v)))))
  | .inr (.inr (.inr (.inr (.inr (.inl v))))) => congrArg Sum.inr (congrArg Sum.inr (congrArg Sum.inr (congrArg Sum.inr (congrArg Sum.inr (congrArg Sum.inl (ClosureOpt.toDen_ofDen v))))))
  | .inr (.inr (.inr (.inr (.inr (.inr (.inl v)))))) => congrArg Sum.inr (congrArg Sum.inr (congrArg Sum.inr (congrArg Sum.inr (congrArg Sum.inr (congrArg Sum.inr (congrArg Sum.inl (Income.toDen_ofDen v)))))))
  | .inr (.inr (.inr (.inr (.inr (.inr (.inr (.inl v))))))) => congrArg Sum.inr (congrArg Sum.inr (congrArg Sum.inr (congrArg Sum.inr (congrArg Sum.inr (congrArg Sum.inr (congrArg Sum.inr (congrArg Sum.inl (InvExpense.toDen_ofDen v))))))))
  | .inr (.inr (.inr (.inr (.inr (.inr (.inr (.inr (.inl v)))))))) => congrArg Sum.inr (congrArg Sum.inr (congrArg Sum.inr (congrArg Sum.inr (congrArg Sum.inr (congrArg Sum.inr (congrArg Sum.inr (congrArg Sum.inr (congrArg Sum.inl (JrnlFund.toDen_ofDen v)))))))))
  | .inr (.inr (.inr (.inr (.inr (.inr (.inr (.inr (.inr (.inl v))))))))) => congrArg Sum.inr (congrArg Sum.inr (congrArg Sum.inr (congrArg Sum.inr (congrArg Sum.inr (congrArg Sum.inr (congrArg Sum.inr (congrArg Sum.inr (congrArg Sum.inr (congrArg Sum.inl (JrnlSec.toDen_ofDen v))))))))))
  | .inr (.inr (.inr (.inr (.inr (.inr (.inr (.inr (.inr (.inr (.inl v)))))))))) => congrArg Sum.inr (congrArg Sum.inr (congrArg Sum.inr (congrArg Sum.inr (congrArg Sum.inr (congrArg Sum.inr (congrArg Sum.inr (congrArg Sum.inr (congrArg Sum.inr (congrArg Sum.inr (congrArg Sum.inl (MarginInterest.toDen_ofDen v)))))))))))
  | .inr (.inr (.inr (.inr (.inr (.inr (.inr (.inr (.inr (.inr (.inr (.inl v))))))))))) => congrArg Sum.inr (congrArg Sum.inr (congrArg Sum.inr (congrArg Sum.inr (congrArg Sum.inr (congrArg Sum.inr (congrArg Sum.inr (congrArg Sum.inr (congrArg Sum.inr (congrArg Sum.inr (congrArg Sum.inr (congrArg Sum.inl (Reinvest.toDen_ofDen v))))))))))))
  | .inr (.inr (.inr (.inr (.inr (.inr (.inr (.inr (.inr (.inr (.inr (.inr (.inl v)))))))))))) => congrArg Sum.inr (congrArg Sum.inr (congrArg Sum.inr (congrArg Sum.inr (congrArg Sum.inr (congrArg Sum.inr (congrArg Sum.inr (congrArg Sum.inr (congrArg Sum.inr (congrArg Sum.inr (congrArg Sum.inr (congrArg Sum.inr (congrArg Sum.inl (RetOfCap.toDen_ofDen v)))))))))))))
  | .inr (.inr (.inr (.inr (.inr (.inr (.inr (.inr (.inr (.inr (.inr (.inr (.inr (.inl v))))))))))))) => congrArg Sum.inr (congrArg Sum.inr (congrArg Sum.inr (congrArg Sum.inr (congrArg Sum.inr (congrArg Sum.inr (congrArg Sum.inr (congrArg Sum.inr (congrArg Sum.inr (congrArg Sum.inr (congrArg Sum.inr (congrArg Sum.inr (congrArg Sum.inr (congrArg Sum.inl (SellDebt.toDen_ofDen v))))))))))))))
  | .inr (.inr (.inr (.inr (.inr (.inr (.inr (.inr (.inr (.inr (.inr (.inr (.inr (.inr (.inl v)))))))))))))) => congrArg Sum.inr (congrArg Sum.inr (congrArg Sum.inr (congrArg Sum.inr (congrArg Sum.inr (congrArg Sum.inr (congrArg Sum.inr (congrArg Sum.inr (congrArg Sum.inr (congrArg Sum.inr (congrArg Sum.inr (congrArg Sum.inr (congrArg Sum.inr (congrArg Sum.inr (congrArg Sum.inl (SellMF.toDen_ofDen v)))))))))))))))
  | .inr (.inr (.inr (.inr (.inr (.inr (.inr (.inr (.inr (.inr (.inr (.inr (.inr (.inr (.inr (.inl v))))))))))))))) => congrArg Sum.inr (congrArg Sum.inr (congrArg Sum.inr (congrArg Sum.inr (congrArg Sum.inr (congrArg Sum.inr (congrArg Sum.inr (congrArg Sum.inr (congrArg Sum.inr (congrArg Sum.inr (congrArg Sum.inr (congrArg Sum.inr (congrArg Sum.inr (congrArg Sum.inr (congrArg Sum.inr (congrArg Sum.inl (SellOpt.toDen_ofDen v))))))))))))))))
  | .inr (.inr (.inr (.inr (.inr (.inr (.inr (.inr (.inr (.inr (.inr (.inr (.inr (.inr (.inr (.inr (.inl v)))))))))))))))) => congrArg Sum.inr (congrArg Sum.inr (congrArg Sum.inr (congrArg Sum.inr (congrArg Sum.inr (congrArg Sum.inr (congrArg Sum.inr (congrArg Sum.inr (congrArg Sum.inr (congrArg Sum.inr (congrArg Sum.inr (congrArg Sum.inr (congrArg Sum.inr (congrArg Sum.inr (congrArg Sum.inr (congrArg Sum.inr (congrArg Sum.inl (SellOther.toDen_ofDen v)))))))))))))))))
  | .inr (.inr (.inr (.inr (.inr (.inr (.inr (.inr (.inr (.inr (.inr (.inr (.inr (.inr (.inr (.inr (.inr (.inl v))))))))))))))))) => congrArg Sum.inr (congrArg Sum.inr (congrArg Sum.inr (congrArg Sum.inr (congrArg Sum.inr (congrArg Sum.inr (congrArg Sum.inr (congrArg Sum.inr (congrArg Sum.inr (congrArg Sum.inr (congrArg Sum.inr (congrArg Sum.inr (congrArg Sum.inr (congrArg Sum.inr (congrArg Sum.inr (congrArg Sum.inr (congrArg Sum.inr (congrArg Sum.inl (SellStock.toDen_ofDen v))))))))))))))))))
  | .inr (.inr (.inr (.inr (.inr (.inr (.inr (.inr (.inr (.inr (.inr (.inr (.inr (.inr (.inr (.inr (.inr (.inr (.inl v)))))))))))))))))) => congrArg Sum.inr (congrArg Sum.inr (congrArg Sum.inr (congrArg Sum.inr (congrArg Sum.inr (congrArg Sum.inr (congrArg Sum.inr (congrArg Sum.inr (congrArg Sum.inr (congrArg Sum.inr (congrArg Sum.inr (congrArg Sum.inr (congrArg Sum.inr (congrArg Sum.inr (congrArg Sum.inr (congrArg Sum.inr (congrArg Sum.inr (congrArg Sum.inr (congrArg Sum.inl (Split.toDen_ofDen v)))))))))))))))))))
  | .inr (.inr (.inr (.inr (.inr (.inr (.inr (.inr (.inr (.inr (.inr (.inr (.inr (.inr (.inr (.inr (.inr (.inr (.inr (.inl v))))))))))))))))))) => congrArg Sum.inr (congrArg Sum.inr (congrArg Sum.inr (congrArg Sum.inr (congrArg Sum.inr (congrArg Sum.inr (congrArg Sum.inr (congrArg Sum.inr (congrArg Sum.inr (congrArg Sum.inr (congrArg Sum.inr (congrArg Sum.inr (congrArg Sum.inr (congrArg Sum.inr (congrArg Sum.inr (congrArg Sum.inr (congrArg Sum.inr (congrArg Sum.inr (congrArg Sum.inr (congrArg Sum.inl (Transfer.toDen_ofDen v))))))))))))))))))))

/-- invstmt.go 558-713 `InvTranList.UnmarshalXML`, 716-826 `MarshalXML` -/
def InvTranList.fields : Fields :=
  .field [] "DTSTART".toList false (.leaf .date) <|
  .field [] "DTEND".toList false (.leaf .date) <|
  .alts InvTransaction.alts <|
  .field [] "INVBANKTRAN".toList false (.slice InvBankTransaction.ty) <|
  .nil
/-- invstmt.go 548-554: schema. -/
def InvTranList.ty : Ty := .closed "INVTRANLIST".toList false InvTranList.fields
/-- invstmt.go 548-554: conversion to a value of the schema. -/
def InvTranList.toDen (x : InvTranList) : InvTranList.ty.Den :=
  (x.DtStart, x.DtEnd, List.map InvTransaction.toDen x.InvTransactions, List.map InvBankTransaction.toDen x.BankTransactions, ())
/-- invstmt.go 548-554: conversion from a value of the schema. -/
def InvTranList.ofDen (d : InvTranList.ty.Den) : InvTranList :=
  ⟨d.1, d.2.1, List.map InvTransaction.ofDen d.2.2.1, List.map InvBankTransaction.ofDen d.2.2.2.1⟩
@[simp] theorem InvTranList.ofDen_toDen (x : InvTranList) : InvTranList.ofDen (InvTranList.toDen x) = x := by
  simp [InvTranList.toDen, InvTranList.ofDen, Function.comp_def]
theorem InvTranList.toDen_ofDen (d : InvTranList.ty.Den) : InvTranList.toDen (InvTranList.ofDen d) = d :=
  Prod.ext rfl (Prod.ext rfl (Prod.ext (listInv InvTransaction.toDen_ofDen _) (Prod.ext (listInv InvBankTransaction.toDen_ofDen _) (rfl))))

/-- invstmt.go 830-843 -/
def InvPosition.fields : Fields :=
  .field [] "SECID".toList false SecurityID.ty <|
  .field [] "HELDINACCT".toList false (.leaf (.enum enumSubAcctType)) <|
  .field [] "POSTYPE".toList false (.leaf (.enum enumPosType)) <|
  .field [] "UNITS".toList false (.leaf .amount) <|
  .field [] "UNITPRICE".toList false (.leaf .amount) <|
  .field [] "MKTVAL".toList false (.leaf .amount) <|
  .field [] "AVGCOSTBASIS".toList true (.leaf .amount) <|
  .field [] "DTPRICEASOF".toList false (.leaf .date) <|
  .field [] "CURRENCY".toList true (.ptr Currency.ty) <|
  .field [] "MEMO".toList true (.leaf .str) <|
  .field [] "INV401KSOURCE".toList true (.leaf (.enum enumInv401kSource)) <|
  .nil
/-- invstmt.go 830-843: schema. -/
def InvPosition.ty : Ty := .struct (.tag "INVPOS".toList) InvPosition.fields
/-- invstmt.go 830-843: conversion to a value of the schema. -/
def InvPosition.toDen (x : InvPosition) : InvPosition.ty.Den :=
  ((), SecurityID.toDen x.SecID, x.HeldInAcct, x.PosType, x.Units, x.UnitPrice, x.MktVal, x.AvgCostBasis, x.DtPriceAsOf, Option.map Currency.toDen x.Currency, x.Memo, x.Inv401kSource, ())
/-- invstmt.go 830-843: conversion from a value of the schema. -/
def InvPosition.ofDen (d : InvPosition.ty.Den) : InvPosition :=
  ⟨SecurityID.ofDen d.2.1, d.2.2.1, d.2.2.2.1, d.2.2.2.2.1, d.2.2.2.2.2.1, d.2.2.2.2.2.2.1, d.2.2.2.2.2.2.2.1, d.2.2.2.2.2.2.2.2.1, Option.map Currency.ofDen d.2.2.2.2.2.2.2.2.2.1, d.2.2.2.2.2.2.2.2.2.2.1, d.2.2.2.2.2.2.2.2.2.2.2.1⟩
@[simp] theorem InvPosition.ofDen_toDen (x : InvPosition) : InvPosition.ofDen (InvPosition.toDen x) = x := by
  simp [InvPosition.toDen, InvPosition.ofDen, Function.comp_def]
theorem InvPosition.toDen_ofDen (d : InvPosition.ty.Den) : InvPosition.toDen (InvPosition.ofDen d) = d :=
  Prod.ext rfl (Prod.ext (SecurityID.toDen_ofDen _) (Prod.ext rfl (Prod.ext rfl (Prod.ext rfl (Prod.ext rfl (Prod.ext rfl (Prod.ext rfl (Prod.ext rfl (Prod.ext (optInv Currency.toDen_ofDen _) (Prod.ext rfl (Prod.ext rfl (rfl))))))))))))

/-- invstmt.go 852-855 -/
def DebtPosition.fields : Fields :=
  .field [] "INVPOS".toList false InvPosition.ty <|
  .nil
/-- invstmt.go 852-855: schema. -/
def DebtPosition.ty : Ty := .struct (.tag "POSDEBT".toList) DebtPosition.fields
/-- invstmt.go 852-855: conversion to a value of the schema. -/
def DebtPosition.toDen (x : DebtPosition) : DebtPosition.ty.Den :=
  ((), InvPosition.toDen x.InvPos, ())
/-- invstmt.go 852-855: conversion from a value of the schema. -/
def DebtPosition.ofDen (d : DebtPosition.ty.Den) : DebtPosition :=
  ⟨InvPosition.ofDen d.2.1⟩
@[simp] theorem DebtPosition.ofDen_toDen (x : DebtPosition) : DebtPosition.ofDen (DebtPosition.toDen x) = x := by
  simp [DebtPosition.toDen, DebtPosition.ofDen]
theorem DebtPosition.toDen_ofDen (d : DebtPosition.ty.Den) : DebtPosition.toDen (DebtPosition.ofDen d) = d :=
  Prod.ext rfl (Prod.ext (InvPosition.toDen_ofDen _) (rfl))

/-- invstmt.go 868-875 -/
def MFPosition.fields : Fields :=
  .field [] "INVPOS".toList false InvPosition.ty <|
  .field [] "UNITSSTREET".toList true (.leaf .amount) <|
  .field [] "UNITSUSER".toList true (.leaf .amount) <|
  .field [] "REINVDIV".toList true (.leaf .bool) <|
  .field [] "REINVCG".toList true (.leaf .bool) <|
  .nil
/-- invstmt.go 868-875: schema. -/
def MFPosition.ty : Ty := .struct (.tag "POSMF".toList) MFPosition.fields
/-- invstmt.go 868-875: conversion to a value of the schema. -/
def MFPosition.toDen (x : MFPosition) : MFPosition.ty.Den :=
  ((), InvPosition.toDen x.InvPos, x.UnitsStreet, x.UnitsUser, x.ReinvDiv, x.ReinvCG, ())
/-- invstmt.go 868-875: conversion from a value of the schema. -/
def MFPosition.ofDen (d : MFPosition.ty.Den) : MFPosition :=
  ⟨InvPosition.ofDen d.2.1, d.2.2.1, d.2.2.2.1, d.2.2.2.2.1, d.2.2.2.2.2.1⟩
@[simp] theorem MFPosition.ofDen_toDen (x : MFPosition) : MFPosition.ofDen (MFPosition.toDen x) = x := by
  simp [MFPosition.toDen, MFPosition.ofDen]
theorem MFPosition.toDen_ofDen (d : MFPosition.ty.Den) : MFPosition.toDen (MFPosition.ofDen d) = d :=
  Prod.ext rfl (Prod.ext (InvPosition.toDen_ofDen _) (Prod.ext rfl (Prod.ext rfl (Prod.ext rfl (Prod.ext rfl (rfl))))))

/-- invstmt.go 888-892 -/
def OptPosition.fields : Fields :=
  .field [] "INVPOS".toList false InvPosition.ty <|
  .field [] "SECURED".toList true (.leaf (.enum enumSecured)) <|
  .nil
/-- invstmt.go 888-892: schema. -/
def OptPosition.ty : Ty := .struct (.tag "POSOPT".toList) OptPosition.fields
/-- invstmt.go 888-892: conversion to a value of the schema. -/
def OptPosition.toDen (x : OptPosition) : OptPosition.ty.Den :=
  ((), InvPosition.toDen x.InvPos, x.Secured, ())
/-- invstmt.go 888-892: conversion from a value of the schema. -/
def OptPosition.ofDen (d : OptPosition.ty.Den) : OptPosition :=
  ⟨InvPosition.ofDen d.2.1, d.2.2.1⟩
@[simp] theorem OptPosition.ofDen_toDen (x : OptPosition) : OptPosition.ofDen (OptPosition.toDen x) = x := by
  simp [OptPosition.toDen, OptPosition.ofDen]
theorem OptPosition.toDen_ofDen (d : OptPosition.ty.Den) : OptPosition.toDen (OptPosition.ofDen d) = d :=
  Prod.ext rfl (Prod.ext (InvPosition.toDen_ofDen _) (Prod.ext rfl (rfl)))

/-- invstmt.go 906-909 -/
def OtherPosition.fields : Fields :=
  .field [] "INVPOS".toList false InvPosition.ty <|
  .nil
/-- invstmt.go 906-909: schema. -/
def OtherPosition.ty : Ty := .struct (.tag "POSOTHER".toList) OtherPosition.fields
/-- invstmt.go 906-909: conversion to a value of the schema. -/
def OtherPosition.toDen (x : OtherPosition) : OtherPosition.ty.Den :=
  ((), InvPosition.toDen x.InvPos, ())
/-- invstmt.go 906-909: conversion from a value of the schema. -/
def OtherPosition.ofDen (d : OtherPosition.ty.Den) : OtherPosition :=
  ⟨InvPosition.ofDen d.2.1⟩
@[simp] theorem OtherPosition.ofDen_toDen (x : OtherPosition) : OtherPosition.ofDen (OtherPosition.toDen x) = x := by
  simp [OtherPosition.toDen, OtherPosition.ofDen]
theorem OtherPosition.toDen_ofDen (d : OtherPosition.ty.Den) : OtherPosition.toDen (OtherPosition.ofDen d) = d :=
  Prod.ext rfl (Prod.ext (InvPosition.toDen_ofDen _) (rfl))

/-- invstmt.go 922-928 -/
def StockPosition.fields : Fields :=
  .field [] "INVPOS".toList false InvPosition.ty <|
  .field [] "UNITSSTREET".toList true (.leaf .amount) <|
  .field [] "UNITSUSER".toList true (.leaf .amount) <|
  .field [] "REINVDIV".toList true (.leaf .bool) <|
  .nil
/-- invstmt.go 922-928: schema. -/
def StockPosition.ty : Ty := .struct (.tag "POSSTOCK".toList) StockPosition.fields
/-- invstmt.go 922-928: conversion to a value of the schema. -/
def StockPosition.toDen (x : StockPosition) : StockPosition.ty.Den :=
  ((), InvPosition.toDen x.InvPos, x.UnitsStreet, x.UnitsUser, x.ReinvDiv, ())
/-- invstmt.go 922-928: conversion from a value of the schema. -/
def StockPosition.ofDen (d : StockPosition.ty.Den) : StockPosition :=
  ⟨InvPosition.ofDen d.2.1, d.2.2.1, d.2.2.2.1, d.2.2.2.2.1⟩
@[simp] theorem StockPosition.ofDen_toDen (x : StockPosition) : StockPosition.ofDen (StockPosition.toDen x) = x := by
  simp [StockPosition.toDen, StockPosition.ofDen]
theorem StockPosition.toDen_ofDen (d : StockPosition.ty.Den) : StockPosition.toDen (StockPosition.ofDen d) = d :=
  Prod.ext rfl (Prod.ext (InvPosition.toDen_ofDen _) (Prod.ext rfl (Prod.ext rfl (Prod.ext rfl (rfl)))))

/-- invstmt.go 1036-1043 -/
def InvBalance.fields : Fields :=
  .field [] "AVAILCASH".toList false (.leaf .amount) <|
  .field [] "MARGINBALANCE".toList false (.leaf .amount) <|
  .field [] "SHORTBALANCE".toList false (.leaf .amount) <|
  .field [] "BUYPOWER".toList true (.leaf .amount) <|
  .field ["BALLIST".toList] "BAL".toList true (.slice Balance.ty) <|
  .nil
/-- invstmt.go 1036-1043: schema. -/
def InvBalance.ty : Ty := .struct (.tag "INVBAL".toList) InvBalance.fields
/-- invstmt.go 1036-1043: conversion to a value of the schema. -/
def InvBalance.toDen (x : InvBalance) : InvBalance.ty.Den :=
  ((), x.AvailCash, x.MarginBalance, x.ShortBalance, x.BuyPower, List.map Balance.toDen x.BalList, ())
/-- invstmt.go 1036-1043: conversion from a value of the schema. -/
def InvBalance.ofDen (d : InvBalance.ty.Den) : InvBalance :=
  ⟨d.2.1, d.2.2.1, d.2.2.2.1, d.2.2.2.2.1, List.map Balance.ofDen d.2.2.2.2.2.1⟩
@[simp] theorem InvBalance.ofDen_toDen (x : InvBalance) : InvBalance.ofDen (InvBalance.toDen x) = x := by
  simp [InvBalance.toDen, InvBalance.ofDen, Function.comp_def]
theorem InvBalance.toDen_ofDen (d : InvBalance.ty.Den) : InvBalance.toDen (InvBalance.ofDen d) = d :=
  Prod.ext rfl (Prod.ext rfl (Prod.ext rfl (Prod.ext rfl (Prod.ext rfl (Prod.ext (listInv Balance.toDen_ofDen _) (rfl))))))

/-- invstmt.go 1047-1063 -/
def OO.fields : Fields :=
  .field [] "FITID".toList false (.leaf .str) <|
  .field [] "SRVRTID".toList true (.leaf .str) <|
  .field [] "SECID".toList false SecurityID.ty <|
  .field [] "DTPLACED".toList false (.leaf .date) <|
  .field [] "UNITS".toList false (.leaf .amount) <|
  .field [] "SUBACCT".toList false (.leaf (.enum enumSubAcctType)) <|
  .field [] "DURATION".toList false (.leaf (.enum enumDuration)) <|
  .field [] "RESTRICTION".toList false (.leaf (.enum enumRestriction)) <|
  .field [] "MINUNITS".toList true (.leaf .amount) <|
  .field [] "LIMITPRICE".toList true (.leaf .amount) <|
  .field [] "STOPPRICE".toList true (.leaf .amount) <|
  .field [] "MEMO".toList true (.leaf .str) <|
  .field [] "CURRENCY".toList true (.ptr Currency.ty) <|
  .field [] "INV401KSOURCE".toList true (.leaf (.enum enumInv401kSource)) <|
  .nil
/-- invstmt.go 1047-1063: schema. -/
def OO.ty : Ty := .struct (.tag "OO".toList) OO.fields
/-- invstmt.go 1047-1063: conversion to a value of the schema. -/
def OO.toDen (x : OO) : OO.ty.Den :=
  ((), x.FiTID, x.SrvrTID, SecurityID.toDen x.SecID, x.DtPlaced, x.Units, x.SubAcct, x.Duration, x.Restriction, x.MinUnits, x.LimitPrice, x.StopPrice, x.Memo, Option.map Currency.toDen x.Currency, x.Inv401kSource, ())
/-- invstmt.go 1047-1063: conversion from a value of the schema. -/
def OO.ofDen (d : OO.ty.Den) : OO :=
  ⟨d.2.1, d.2.2.1, SecurityID.ofDen d.2.2.2.1, d.2.2.2.2.1, d.2.2.2.2.2.1, d.2.2.2.2.2.2.1, d.2.2.2.2.2.2.2.1, d.2.2.2.2.2.2.2.2.1, d.2.2.2.2.2.2.2.2.2.1, d.2.2.2.2.2.2.2.2.2.2.1, d.2.2.2.2.2.2.2.2.2.2.2.1, d.2.2.2.2.2.2.2.2.2.2.2.2.1, Option.map Currency.ofDen d.2.2.2.2.2.2.2.2.2.2.2.2.2.1, d.2.2.2.2.2.2.2.2.2.2.2.2.2.2.1⟩
@[simp] theorem OO.ofDen_toDen (x : OO) : OO.ofDen (OO.toDen x) = x := by
  simp [OO.toDen, OO.ofDen, Function.comp_def]
theorem OO.toDen_ofDen (d : OO.ty.Den) : OO.toDen (OO.ofDen d) = d :=
  Prod.ext rfl (Prod.ext rfl (Prod.ext rfl (Prod.ext (SecurityID.toDen_ofDen _) (Prod.ext rfl (Prod.ext rfl (Prod.ext rfl (Prod.ext rfl (Prod.ext rfl (Prod.ext rfl (Prod.ext rfl (Prod.ext rfl (Prod.ext rfl (Prod.ext (optInv Currency.toDen_ofDen _) (Prod.ext rfl (rfl)))))))))))))))

/-- invstmt.go 1071-1076 -/
def OOBuyDebt.fields : Fields :=
  .field [] "OO".toList false OO.ty <|
  .field [] "AUCTION".toList false (.leaf .bool) <|
  .field [] "DTAUCTION".toList true (.ptr (.leaf .date)) <|
  .nil
/-- invstmt.go 1071-1076: schema. -/
def OOBuyDebt.ty : Ty := .struct (.tag "OOBUYDEBT".toList) OOBuyDebt.fields
/-- invstmt.go 1071-1076: conversion to a value of the schema. -/
def OOBuyDebt.toDen (x : OOBuyDebt) : OOBuyDebt.ty.Den :=
  ((), OO.toDen x.OO, x.Auction, x.DtAuction, ())
/-- invstmt.go 1071-1076: conversion from a value of the schema. -/
def OOBuyDebt.ofDen (d : OOBuyDebt.ty.Den) : OOBuyDebt :=
  ⟨OO.ofDen d.2.1, d.2.2.1, d.2.2.2.1⟩
@[simp] theorem OOBuyDebt.ofDen_toDen (x : OOBuyDebt) : OOBuyDebt.ofDen (OOBuyDebt.toDen x) = x := by
  simp [OOBuyDebt.toDen, OOBuyDebt.ofDen]
theorem OOBuyDebt.toDen_ofDen (d : OOBuyDebt.ty.Den) : OOBuyDebt.toDen (OOBuyDebt.ofDen d) = d :=
  Prod.ext rfl (Prod.ext (OO.toDen_ofDen _) (Prod.ext rfl (Prod.ext rfl (rfl))))

/-- invstmt.go 1084-1089 -/
def OOBuyMF.fields : Fields :=
  .field [] "OO".toList false OO.ty <|
  .field [] "BUYTYPE".toList false (.leaf (.enum enumBuyType)) <|
  .field [] "UNITTYPE".toList false (.leaf (.enum enumUnitType)) <|
  .nil
/-- invstmt.go 1084-1089: schema. -/
def OOBuyMF.ty : Ty := .struct (.tag "OOBUYMF".toList) OOBuyMF.fields
/-- invstmt.go 1084-1089: conversion to a value of the schema. -/
def OOBuyMF.toDen (x : OOBuyMF) : OOBuyMF.ty.Den :=
  ((), OO.toDen x.OO, x.BuyType, x.UnitType, ())
/-- invstmt.go 1084-1089: conversion from a value of the schema. -/
def OOBuyMF.ofDen (d : OOBuyMF.ty.Den) : OOBuyMF :=
  ⟨OO.ofDen d.2.1, d.2.2.1, d.2.2.2.1⟩
@[simp] theorem OOBuyMF.ofDen_toDen (x : OOBuyMF) : OOBuyMF.ofDen (OOBuyMF.toDen x) = x := by
  simp [OOBuyMF.toDen, OOBuyMF.ofDen]
theorem OOBuyMF.toDen_ofDen (d : OOBuyMF.ty.Den) : OOBuyMF.toDen (OOBuyMF.ofDen d) = d :=
  Prod.ext rfl (Prod.ext (OO.toDen_ofDen _) (Prod.ext rfl (Prod.ext rfl (rfl))))

/-- invstmt.go 1097-1101 -/
def OOBuyOpt.fields : Fields :=
  .field [] "OO".toList false OO.ty <|
  .field [] "OPTBUYTYPE".toList false (.leaf (.enum enumOptBuyType)) <|
  .nil
/-- invstmt.go 1097-1101: schema. -/
def OOBuyOpt.ty : Ty := .struct (.tag "OOBUYOPT".toList) OOBuyOpt.fields
/-- invstmt.go 1097-1101: conversion to a value of the schema. -/
def OOBuyOpt.toDen (x : OOBuyOpt) : OOBuyOpt.ty.Den :=
  ((), OO.toDen x.OO, x.OptBuyType, ())
/-- invstmt.go 1097-1101: conversion from a value of the schema. -/
def OOBuyOpt.ofDen (d : OOBuyOpt.ty.Den) : OOBuyOpt :=
  ⟨OO.ofDen d.2.1, d.2.2.1⟩
@[simp] theorem OOBuyOpt.ofDen_toDen (x : OOBuyOpt) : OOBuyOpt.ofDen (OOBuyOpt.toDen x) = x := by
  simp [OOBuyOpt.toDen, OOBuyOpt.ofDen]
theorem OOBuyOpt.toDen_ofDen (d : OOBuyOpt.ty.Den) : OOBuyOpt.toDen (OOBuyOpt.ofDen d) = d :=
  Prod.ext rfl (Prod.ext (OO.toDen_ofDen _) (Prod.ext rfl (rfl)))

/-- invstmt.go 1110-1114 -/
def OOBuyOther.fields : Fields :=
  .field [] "OO".toList false OO.ty <|
  .field [] "UNITTYPE".toList false (.leaf (.enum enumUnitType)) <|
  .nil
/-- invstmt.go 1110-1114: schema. -/
def OOBuyOther.ty : Ty := .struct (.tag "OOBUYOTHER".toList) OOBuyOther.fields
/-- invstmt.go 1110-1114: conversion to a value of the schema. -/
def OOBuyOther.toDen (x : OOBuyOther) : OOBuyOther.ty.Den :=
  ((), OO.toDen x.OO, x.UnitType, ())
/-- invstmt.go 1110-1114: conversion from a value of the schema. -/
def OOBuyOther.ofDen (d : OOBuyOther.ty.Den) : OOBuyOther :=
  ⟨OO.ofDen d.2.1, d.2.2.1⟩
@[simp] theorem OOBuyOther.ofDen_toDen (x : OOBuyOther) : OOBuyOther.ofDen (OOBuyOther.toDen x) = x := by
  simp [OOBuyOther.toDen, OOBuyOther.ofDen]
theorem OOBuyOther.toDen_ofDen (d : OOBuyOther.ty.Den) : OOBuyOther.toDen (OOBuyOther.ofDen d) = d :=
  Prod.ext rfl (Prod.ext (OO.toDen_ofDen _) (Prod.ext rfl (rfl)))

/-- invstmt.go 1122-1126 -/
def OOBuyStock.fields : Fields :=
  .field [] "OO".toList false OO.ty <|
  .field [] "BUYTYPE".toList false (.leaf (.enum enumBuyType)) <|
  .nil
/-- invstmt.go 1122-1126: schema. -/
def OOBuyStock.ty : Ty := .struct (.tag "OOBUYSTOCK".toList) OOBuyStock.fields
/-- invstmt.go 1122-1126: conversion to a value of the schema. -/
def OOBuyStock.toDen (x : OOBuyStock) : OOBuyStock.ty.Den :=
  ((), OO.toDen x.OO, x.BuyType, ())
/-- invstmt.go 1122-1126: conversion from a value of the schema. -/
def OOBuyStock.ofDen (d : OOBuyStock.ty.Den) : OOBuyStock :=
  ⟨OO.ofDen d.2.1, d.2.2.1⟩
@[simp] theorem OOBuyStock.ofDen_toDen (x : OOBuyStock) : OOBuyStock.ofDen (OOBuyStock.toDen x) = x := by
  simp [OOBuyStock.toDen, OOBuyStock.ofDen]
theorem OOBuyStock.toDen_ofDen (d : OOBuyStock.ty.Den) : OOBuyStock.toDen (OOBuyStock.ofDen d) = d :=
  Prod.ext rfl (Prod.ext (OO.toDen_ofDen _) (Prod.ext rfl (rfl)))

/-- invstmt.go 1134-1137 -/
def OOSellDebt.fields : Fields :=
  .field [] "OO".toList false OO.ty <|
  .nil
/-- invstmt.go 1134-1137: schema. -/
def OOSellDebt.ty : Ty := .struct (.tag "OOSELLDEBT".toList) OOSellDebt.fields
/-- invstmt.go 1134-1137: conversion to a value of the schema. -/
def OOSellDebt.toDen (x : OOSellDebt) : OOSellDebt.ty.Den :=
  ((), OO.toDen x.OO, ())
/-- invstmt.go 1134-1137: conversion from a value of the schema. -/
def OOSellDebt.ofDen (d : OOSellDebt.ty.Den) : OOSellDebt :=
  ⟨OO.ofDen d.2.1⟩
@[simp] theorem OOSellDebt.ofDen_toDen (x : OOSellDebt) : OOSellDebt.ofDen (OOSellDebt.toDen x) = x := by
  simp [OOSellDebt.toDen, OOSellDebt.ofDen]
theorem OOSellDebt.toDen_ofDen (d : OOSellDebt.ty.Den) : OOSellDebt.toDen (OOSellDebt.ofDen d) = d :=
  Prod.ext rfl (Prod.ext (OO.toDen_ofDen _) (rfl))

/-- invstmt.go 1145-1151 -/
def OOSellMF.fields : Fields :=
  .field [] "OO".toList false OO.ty <|
  .field [] "SELLTYPE".toList false (.leaf (.enum enumSellType)) <|
  .field [] "UNITTYPE".toList false (.leaf (.enum enumUnitType)) <|
  .field [] "SELLALL".toList false (.leaf .bool) <|
  .nil
/-- invstmt.go 1145-1151: schema. -/
def OOSellMF.ty : Ty := .struct (.tag "OOSELLMF".toList) OOSellMF.fields
/-- invstmt.go 1145-1151: conversion to a value of the schema. -/
def OOSellMF.toDen (x : OOSellMF) : OOSellMF.ty.Den :=
  ((), OO.toDen x.OO, x.SellType, x.UnitType, x.SellAll, ())
/-- invstmt.go 1145-1151: conversion from a value of the schema. -/
def OOSellMF.ofDen (d : OOSellMF.ty.Den) : OOSellMF :=
  ⟨OO.ofDen d.2.1, d.2.2.1, d.2.2.2.1, d.2.2.2.2.1⟩
@[simp] theorem OOSellMF.ofDen_toDen (x : OOSellMF) : OOSellMF.ofDen (OOSellMF.toDen x) = x := by
  simp [OOSellMF.toDen, OOSellMF.ofDen]
theorem OOSellMF.toDen_ofDen (d : OOSellMF.ty.Den) : OOSellMF.toDen (OOSellMF.ofDen d) = d :=
  Prod.ext rfl (Prod.ext (OO.toDen_ofDen _) (Prod.ext rfl (Prod.ext rfl (Prod.ext rfl (rfl)))))

/-- invstmt.go 1159-1163 -/
def OOSellOpt.fields : Fields :=
  .field [] "OO".toList false OO.ty <|
  .field [] "OPTSELLTYPE".toList false (.leaf (.enum enumOptSellType)) <|
  .nil
/-- invstmt.go 1159-1163: schema. -/
def OOSellOpt.ty : Ty := .struct (.tag "OOSELLOPT".toList) OOSellOpt.fields
/-- invstmt.go 1159-1163: conversion to a value of the schema. -/
def OOSellOpt.toDen (x : OOSellOpt) : OOSellOpt.ty.Den :=
  ((), OO.toDen x.OO, x.OptSellType, ())
/-- invstmt.go 1159-1163: conversion from a value of the schema. -/
def OOSellOpt.ofDen (d : OOSellOpt.ty.Den) : OOSellOpt :=
  ⟨OO.ofDen d.2.1, d.2.2.1⟩
@[simp] theorem OOSellOpt.ofDen_toDen (x : OOSellOpt) : OOSellOpt.ofDen (OOSellOpt.toDen x) = x := by
  simp [OOSellOpt.toDen, OOSellOpt.ofDen]
theorem OOSellOpt.toDen_ofDen (d : OOSellOpt.ty.Den) : OOSellOpt.toDen (OOSellOpt.ofDen d) = d :=
  Prod.ext rfl (Prod.ext (OO.toDen_ofDen _) (Prod.ext rfl (rfl)))

/-- invstmt.go 1172-1176 -/
def OOSellOther.fields : Fields :=
  .field [] "OO".toList false OO.ty <|
  .field [] "UNITTYPE".toList false (.leaf (.enum enumUnitType)) <|
  .nil
/-- invstmt.go 1172-1176: schema. -/
def OOSellOther.ty : Ty := .struct (.tag "OOSELLOTHER".toList) OOSellOther.fields
/-- invstmt.go 1172-1176: conversion to a value of the schema. -/
def OOSellOther.toDen (x : OOSellOther) : OOSellOther.ty.Den :=
  ((), OO.toDen x.OO, x.UnitType, ())
/-- invstmt.go 1172-1176: conversion from a value of the schema. -/
def OOSellOther.ofDen (d : OOSellOther.ty.Den) : OOSellOther :=
  ⟨OO.ofDen d.2.1, d.2.2.1⟩
@[simp] theorem OOSellOther.ofDen_toDen (x : OOSellOther) : OOSellOther.ofDen (OOSellOther.toDen x) = x := by
  simp [OOSellOther.toDen, OOSellOther.ofDen]
theorem OOSellOther.toDen_ofDen (d : OOSellOther.ty.Den) : OOSellOther.toDen (OOSellOther.ofDen d) = d :=
  Prod.ext rfl (Prod.ext (OO.toDen_ofDen _) (Prod.ext rfl (rfl)))

/-- invstmt.go 1184-1188 -/
def OOSellStock.fields : Fields :=
  .field [] "OO".toList false OO.ty <|
  .field [] "SELLTYPE".toList false (.leaf (.enum enumSellType)) <|
  .nil
/-- invstmt.go 1184-1188: schema. -/
def OOSellStock.ty : Ty := .struct (.tag "OOSELLSTOCK".toList) OOSellStock.fields
/-- invstmt.go 1184-1188: conversion to a value of the schema. -/
def OOSellStock.toDen (x : OOSellStock) : OOSellStock.ty.Den :=
  ((), OO.toDen x.OO, x.SellType, ())
/-- invstmt.go 1184-1188: conversion from a value of the schema. -/
def OOSellStock.ofDen (d : OOSellStock.ty.Den) : OOSellStock :=
  ⟨OO.ofDen d.2.1, d.2.2.1⟩
@[simp] theorem OOSellStock.ofDen_toDen (x : OOSellStock) : OOSellStock.ofDen (OOSellStock.toDen x) = x := by
  simp [OOSellStock.toDen, OOSellStock.ofDen]
theorem OOSellStock.toDen_ofDen (d : OOSellStock.ty.Den) : OOSellStock.toDen (OOSellStock.ofDen d) = d :=
  Prod.ext rfl (Prod.ext (OO.toDen_ofDen _) (Prod.ext rfl (rfl)))

/-- invstmt.go 1197-1203 -/
def OOSwitchMF.fields : Fields :=
  .field [] "OO".toList false OO.ty <|
  .field [] "SECID".toList false SecurityID.ty <|
  .field [] "UNITTYPE".toList false (.leaf (.enum enumUnitType)) <|
  .field [] "SWITCHALL".toList false (.leaf .bool) <|
  .nil
/-- invstmt.go 1197-1203: schema. -/
def OOSwitchMF.ty : Ty := .struct (.tag "SWITCHMF".toList) OOSwitchMF.fields
/-- invstmt.go 1197-1203: conversion to a value of the schema. -/
def OOSwitchMF.toDen (x : OOSwitchMF) : OOSwitchMF.ty.Den :=
  ((), OO.toDen x.OO, SecurityID.toDen x.SecID, x.UnitType, x.SwitchAll, ())
/-- invstmt.go 1197-1203: conversion from a value of the schema. -/
def OOSwitchMF.ofDen (d : OOSwitchMF.ty.Den) : OOSwitchMF :=
  ⟨OO.ofDen d.2.1, SecurityID.ofDen d.2.2.1, d.2.2.2.1, d.2.2.2.2.1⟩
@[simp] theorem OOSwitchMF.ofDen_toDen (x : OOSwitchMF) : OOSwitchMF.ofDen (OOSwitchMF.toDen x) = x := by
  simp [OOSwitchMF.toDen, OOSwitchMF.ofDen]
theorem OOSwitchMF.toDen_ofDen (d : OOSwitchMF.ty.Den) : OOSwitchMF.toDen (OOSwitchMF.ofDen d) = d :=
  Prod.ext rfl (Prod.ext (OO.toDen_ofDen _) (Prod.ext (SecurityID.toDen_ofDen _) (Prod.ext rfl (Prod.ext rfl (rfl)))))

/-- invstmt.go 1364-1381 -/
def ContribSecurity.fields : Fields :=
  .field [] "SECID".toList false SecurityID.ty <|
  .field [] "PRETAXCONTRIBPCT".toList true (.leaf .amount) <|
  .field [] "PRETAXCONTRIBAMT".toList true (.leaf .amount) <|
  .field [] "AFTERTAXCONTRIBPCT".toList true (.leaf .amount) <|
  .field [] "AFTERTAXCONTRIBAMT".toList true (.leaf .amount) <|
  .field [] "MATCHCONTRIBPCT".toList true (.leaf .amount) <|
  .field [] "MATCHCONTRIBAMT".toList true (.leaf .amount) <|
  .field [] "PROFITSHARINGCONTRIBPCT".toList true (.leaf .amount) <|
  .field [] "PROFITSHARINGCONTRIBAMT".toList true (.leaf .amount) <|
  .field [] "ROLLOVERCONTRIBPCT".toList true (.leaf .amount) <|
  .field [] "ROLLOVERCONTRIBAMT".toList true (.leaf .amount) <|
  .field [] "OTHERVESTPCT".toList true (.leaf .amount) <|
  .field [] "OTHERVESTAMT".toList true (.leaf .amount) <|
  .field [] "OTHERNONVESTPCT".toList true (.leaf .amount) <|
  .field [] "OTHERNONVESTAMT".toList true (.leaf .amount) <|
  .nil
/-- invstmt.go 1364-1381: schema. -/
def ContribSecurity.ty : Ty := .struct (.tag "CONTRIBSECURITY".toList) ContribSecurity.fields
/-- invstmt.go 1364-1381: conversion to a value of the schema. -/
def ContribSecurity.toDen (x : ContribSecurity) : ContribSecurity.ty.Den :=
  ((), SecurityID.toDen x.SecID, x.PreTaxContribPct, x.PreTaxContribAmt, x.AfterTaxContribPct, x.AfterTaxContribAmt, x.MatchContribPct, x.MatchContribAmt, x.ProfitSharingContribPct, x.ProfitSharingContribAmt, x.RolloverContribPct, x.RolloverContribAmt, x.OtherVestPct, x.OtherVestAmt, x.OtherNonVestPct, x.OtherNonVestAmt, ())
/-- invstmt.go 1364-1381: conversion from a value of the schema. -/
def ContribSecurity.ofDen (d : ContribSecurity.ty.Den) : ContribSecurity :=
  ⟨SecurityID.ofDen d.2.1, d.2.2.1, d.2.2.2.1, d.2.2.2.2.1, d.2.2.2.2.2.1, d.2.2.2.2.2.2.1, d.2.2.2.2.2.2.2.1, d.2.2.2.2.2.2.2.2.1, d.2.2.2.2.2.2.2.2.2.1, d.2.2.2.2.2.2.2.2.2.2.1, d.2.2.2.2.2.2.2.2.2.2.2.1, d.2.2.2.2.2.2.2.2.2.2.2.2.1, d.2.2.2.2.2.2.2.2.2.2.2.2.2.1, d.2.2.2.2.2.2.2.2.2.2.2.2.2.2.1, d.2.2.2.2.2.2.2.2.2.2.2.2.2.2.2.1⟩
@[simp] theorem ContribSecurity.ofDen_toDen (x : ContribSecurity) : ContribSecurity.ofDen (ContribSecurity.toDen x) = x := by
  simp [ContribSecurity.toDen, ContribSecurity.ofDen]
theorem ContribSecurity.toDen_ofDen (d : ContribSecurity.ty.Den) : ContribSecurity.toDen (ContribSecurity.ofDen d) = d :=
  Prod.ext rfl (Prod.ext (SecurityID.toDen_ofDen _) (Prod.ext rfl (Prod.ext rfl (Prod.ext rfl (Prod.ext rfl (Prod.ext rfl (Prod.ext rfl (Prod.ext rfl (Prod.ext rfl (Prod.ext rfl (Prod.ext rfl (Prod.ext rfl (Prod.ext rfl (Prod.ext rfl (Prod.ext rfl (rfl))))))))))))))))

/-- invstmt.go 1385-1389 -/
def VestInfo.fields : Fields :=
  .field [] "VESTDATE".toList true (.ptr (.leaf .date)) <|
  .field [] "VESTPCT".toList false (.leaf .amount) <|
  .nil
/-- invstmt.go 1385-1389: schema. -/
def VestInfo.ty : Ty := .struct (.tag "VESTINFO".toList) VestInfo.fields
/-- invstmt.go 1385-1389: conversion to a value of the schema. -/
def VestInfo.toDen (x : VestInfo) : VestInfo.ty.Den :=
  ((), x.VestDate, x.VestPct, ())
/-- invstmt.go 1385-1389: conversion from a value of the schema. -/
def VestInfo.ofDen (d : VestInfo.ty.Den) : VestInfo :=
  ⟨d.2.1, d.2.2.1⟩
@[simp] theorem VestInfo.ofDen_toDen (x : VestInfo) : VestInfo.ofDen (VestInfo.toDen x) = x := by
  simp [VestInfo.toDen, VestInfo.ofDen]
theorem VestInfo.toDen_ofDen (d : VestInfo.ty.Den) : VestInfo.toDen (VestInfo.ofDen d) = d :=
  Prod.ext rfl (Prod.ext rfl (Prod.ext rfl (rfl)))

/-- invstmt.go 1392-1409 -/
def LoanInfo.fields : Fields :=
  .field [] "LOANID".toList false (.leaf .str) <|
  .field [] "LOANDESC".toList true (.leaf .str) <|
  .field [] "INITIALLOANBAL".toList true (.leaf .amount) <|
  .field [] "LOANSTARTDATE".toList true (.ptr (.leaf .date)) <|
  .field [] "CURRENTLOANBAL".toList false (.leaf .amount) <|
  .field [] "DTASOF".toList false (.ptr (.leaf .date)) <|
  .field [] "LOANRATE".toList true (.leaf .amount) <|
  .field [] "LOANPMTAMT".toList true (.leaf .amount) <|
  .field [] "LOANPMTFREQ".toList true (.leaf (.enum enumLoanPmtFreq)) <|
  .field [] "LOANPMTSINITIAL".toList true (.leaf .int) <|
  .field [] "LOANPMTSREMAINING".toList true (.leaf .int) <|
  .field [] "LOANMATURITYDATE".toList true (.ptr (.leaf .date)) <|
  .field [] "LOANTOTALPROJINTEREST".toList true (.leaf .amount) <|
  .field [] "LOANINTERESTTODATE".toList true (.leaf .amount) <|
  .field [] "LOANNEXTPMTDATE".toList true (.ptr (.leaf .date)) <|
  .nil
/-- invstmt.go 1392-1409: schema. -/
def LoanInfo.ty : Ty := .struct (.tag "VESTINFO".toList) LoanInfo.fields
/-- invstmt.go 1392-1409: conversion to a value of the schema. -/
def LoanInfo.toDen (x : LoanInfo) : LoanInfo.ty.Den :=
  ((), x.LoanID, x.LoanDesc, x.InitialLoanBal, x.LoanStartDate, x.CurrentLoanBal, x.DtAsOf, x.LoanRate, x.LoanPmtAmt, x.LoanPmtFreq, x.LoanPmtsInitial, x.LoanPmtsRemaining, x.LoanMaturityDate, x.LoanTotalProjInterest, x.LoanInterestToDate, x.LoanExtPmtDate, ())
/-- invstmt.go 1392-1409: conversion from a value of the schema. -/
def LoanInfo.ofDen (d : LoanInfo.ty.Den) : LoanInfo :=
  ⟨d.2.1, d.2.2.1, d.2.2.2.1, d.2.2.2.2.1, d.2.2.2.2.2.1, d.2.2.2.2.2.2.1, d.2.2.2.2.2.2.2.1, d.2.2.2.2.2.2.2.2.1, d.2.2.2.2.2.2.2.2.2.1, d.2.2.2.2.2.2.2.2.2.2.1, d.2.2.2.2.2.2.2.2.2.2.2.1, d.2.2.2.2.2.2.2.2.2.2.2.2.1, d.2.2.2.2.2.2.2.2.2.2.2.2.2.1, d.2.2.2.2.2.2.2.2.2.2.2.2.2.2.1, d.2.2.2.2.2.2.2.2.2.2.2.2.2.2.2.1⟩
@[simp] theorem LoanInfo.ofDen_toDen (x : LoanInfo) : LoanInfo.ofDen (LoanInfo.toDen x) = x := by
  simp [LoanInfo.toDen, LoanInfo.ofDen]
theorem LoanInfo.toDen_ofDen (d : LoanInfo.ty.Den) : LoanInfo.toDen (LoanInfo.ofDen d) = d :=
  Prod.ext rfl (Prod.ext rfl (Prod.ext rfl (Prod.ext rfl (Prod.ext rfl (Prod.ext rfl (Prod.ext rfl (Prod.ext rfl (Prod.ext rfl (Prod.ext rfl (Prod.ext rfl (Prod.ext rfl (Prod.ext rfl (Prod.ext rfl (Prod.ext rfl (Prod.ext rfl (rfl))))))))))))))))

/-- invstmt.go 1414-1424 -/
def Inv401KSummaryAggregate.fields : Fields :=
  .field [] "PRETAX".toList true (.leaf .amount) <|
  .field [] "AFTERTAX".toList true (.leaf .amount) <|
  .field [] "MATCH".toList true (.leaf .amount) <|
  .field [] "PROFITSHARING".toList true (.leaf .amount) <|
  .field [] "ROLLOVER".toList true (.leaf .amount) <|
  .field [] "OTHERVEST".toList true (.leaf .amount) <|
  .field [] "OTHERNONVEST".toList true (.leaf .amount) <|
  .field [] "TOTAL".toList false (.leaf .amount) <|
  .nil
/-- invstmt.go 1414-1424: schema. -/
def Inv401KSummaryAggregate.ty : Ty := .struct .free Inv401KSummaryAggregate.fields
/-- invstmt.go 1414-1424: conversion to a value of the schema. -/
def Inv401KSummaryAggregate.toDen (x : Inv401KSummaryAggregate) : Inv401KSummaryAggregate.ty.Den :=
  (x.XMLName, x.PreTax, x.AfterTax, x.Match, x.ProfitSharing, x.Rollover, x.OtherVest, x.OtherNonVest, x.Total, ())
/-- invstmt.go 1414-1424: conversion from a value of the schema. -/
def Inv401KSummaryAggregate.ofDen (d : Inv401KSummaryAggregate.ty.Den) : Inv401KSummaryAggregate :=
  ⟨d.1, d.2.1, d.2.2.1, d.2.2.2.1, d.2.2.2.2.1, d.2.2.2.2.2.1, d.2.2.2.2.2.2.1, d.2.2.2.2.2.2.2.1, d.2.2.2.2.2.2.2.2.1⟩
@[simp] theorem Inv401KSummaryAggregate.ofDen_toDen (x : Inv401KSummaryAggregate) : Inv401KSummaryAggregate.ofDen (Inv401KSummaryAggregate.toDen x) = x := by
  simp [Inv401KSummaryAggregate.toDen, Inv401KSummaryAggregate.ofDen]
theorem Inv401KSummaryAggregate.toDen_ofDen (d : Inv401KSummaryAggregate.ty.Den) : Inv401KSummaryAggregate.toDen (Inv401KSummaryAggregate.ofDen d) = d :=
  Prod.ext rfl (Prod.ext rfl (Prod.ext rfl (Prod.ext rfl (Prod.ext rfl (Prod.ext rfl (Prod.ext rfl (Prod.ext rfl (Prod.ext rfl (rfl)))))))))

/-- invstmt.go 1428-1435 -/
def Inv401KSummaryPeriod.fields : Fields :=
  .field [] "DTSTART".toList false (.leaf .date) <|
  .field [] "DTEND".toList false (.leaf .date) <|
  .field [] "CONTRIBUTIONS".toList true (.ptr Inv401KSummaryAggregate.ty) <|
  .field [] "WITHDRAWLS".toList true (.ptr Inv401KSummaryAggregate.ty) <|
  .field [] "EARNINGS".toList true (.ptr Inv401KSummaryAggregate.ty) <|
  .nil
/-- invstmt.go 1428-1435: schema. -/
def Inv401KSummaryPeriod.ty : Ty := .struct .free Inv401KSummaryPeriod.fields
/-- invstmt.go 1428-1435: conversion to a value of the schema. -/
def Inv401KSummaryPeriod.toDen (x : Inv401KSummaryPeriod) : Inv401KSummaryPeriod.ty.Den :=
  (x.XMLName, x.DtStart, x.DtEnd, Option.map Inv401KSummaryAggregate.toDen x.Contributions, Option.map Inv401KSummaryAggregate.toDen x.Withdrawls, Option.map Inv401KSummaryAggregate.toDen x.Earnings, ())
/-- invstmt.go 1428-1435: conversion from a value of the schema. -/
def Inv401KSummaryPeriod.ofDen (d : Inv401KSummaryPeriod.ty.Den) : Inv401KSummaryPeriod :=
  ⟨d.1, d.2.1, d.2.2.1, Option.map Inv401KSummaryAggregate.ofDen d.2.2.2.1, Option.map Inv401KSummaryAggregate.ofDen d.2.2.2.2.1, Option.map Inv401KSummaryAggregate.ofDen d.2.2.2.2.2.1⟩
@[simp] theorem Inv401KSummaryPeriod.ofDen_toDen (x : Inv401KSummaryPeriod) : Inv401KSummaryPeriod.ofDen (Inv401KSummaryPeriod.toDen x) = x := by
  simp [Inv401KSummaryPeriod.toDen, Inv401KSummaryPeriod.ofDen, Function.comp_def]
theorem Inv401KSummaryPeriod.toDen_ofDen (d : Inv401KSummaryPeriod.ty.Den) : Inv401KSummaryPeriod.toDen (Inv401KSummaryPeriod.ofDen d) = d :=
  Prod.ext rfl (Prod.ext rfl (Prod.ext rfl (Prod.ext (optInv Inv401KSummaryAggregate.toDen_ofDen _) (Prod.ext (optInv Inv401KSummaryAggregate.toDen_ofDen _) (Prod.ext (optInv Inv401KSummaryAggregate.toDen_ofDen _) (rfl))))))

/-- invstmt.go 1439-1463 -/
def Inv401K.fields : Fields :=
  .field [] "EMPLOYERNAME".toList false (.leaf .str) <|
  .field [] "PLANID".toList true (.leaf .str) <|
  .field [] "PLANJOINDATE".toList true (.ptr (.leaf .date)) <|
  .field [] "EMPLOYERCONTACTINFO".toList true (.leaf .str) <|
  .field [] "BROKERCONTACTINFO".toList true (.leaf .str) <|
  .field [] "DEFERPCTPRETAX".toList true (.leaf .amount) <|
  .field [] "DEFERPCTAFTERTAX".toList true (.leaf .amount) <|
  .field ["MATCHINFO".toList] "MATCHPCT".toList true (.leaf .amount) <|
  .field ["MATCHINFO".toList] "MAXMATCHAMT".toList true (.leaf .amount) <|
  .field ["MATCHINFO".toList] "MAXMATCHPCT".toList true (.leaf .amount) <|
  .field ["MATCHINFO".toList] "STARTOFYEAR".toList true (.ptr (.leaf .date)) <|
  .field ["MATCHINFO".toList] "BASEMATCHAMT".toList false (.leaf .amount) <|
  .field ["MATCHINFO".toList] "BASEMATCHPCT".toList false (.leaf .amount) <|
  .field ["CONTRIBINTO".toList] "CONTRIBSECURITY".toList false (.slice ContribSecurity.ty) <|
  .field [] "CURRENTVESTPCT".toList true (.leaf .amount) <|
  .field [] "VESTINFO".toList true (.slice VestInfo.ty) <|
  .field [] "LOANINFO".toList true (.slice LoanInfo.ty) <|
  .field ["INV401KSUMMARY".toList] "YEARTODATE".toList false Inv401KSummaryPeriod.ty <|
  .field ["INV401KSUMMARY".toList] "INCEPTODATE".toList true (.ptr Inv401KSummaryPeriod.ty) <|
  .field ["INV401KSUMMARY".toList] "PERIODTODATE".toList true (.ptr Inv401KSummaryPeriod.ty) <|
  .nil
/-- invstmt.go 1439-1463: schema. -/
def Inv401K.ty : Ty := .struct (.tag "INV401K".toList) Inv401K.fields
/-- invstmt.go 1439-1463: conversion to a value of the schema. -/
def Inv401K.toDen (x : Inv401K) : Inv401K.ty.Den :=
  ((), x.EmployerName, x.PlanID, x.PlanJoinDate, x.EmployerContactInfo, x.BrokerContactInfo, x.DeferPctPreTax, x.DeferPctAfterTax, x.MatchPct, x.MaxMatchAmt, x.MaxMatchPct, x.StartOfYear, x.BaseMatchAmt, x.BaseMatchPct, List.map ContribSecurity.toDen x.ContribInfo, x.CurrentVestPct, List.map VestInfo.toDen x.VestInfo, List.map LoanInfo.toDen x.LoanInfo, Inv401KSummaryPeriod.toDen x.YearToDateSummary, Option.map Inv401KSummaryPeriod.toDen x.InceptToDateSummary, Option.map Inv401KSummaryPeriod.toDen x.PeriodToDate, ())
/-- invstmt.go 1439-1463: conversion from a value of the schema. -/
def Inv401K.ofDen (d : Inv401K.ty.Den) : Inv401K :=
  ⟨d.2.1, d.2.2.1, d.2.2.2.1, d.2.2.2.2.1, d.2.2.2.2.2.1, d.2.2.2.2.2.2.1, d.2.2.2.2.2.2.2.1, d.2.2.2.2.2.2.2.2.1, d.2.2.2.2.2.2.2.2.2.1, d.2.2.2.2.2.2.2.2.2.2.1, d.2.2.2.2.2.2.2.2.2.2.2.1, d.2.2.2.2.2.2.2.2.2.2.2.2.1, d.2.2.2.2.2.2.2.2.2.2.2.2.2.1, List.map ContribSecurity.ofDen d.2.2.2.2.2.2.2.2.2.2.2.2.2.2.1, d.2.2.2.2.2.2.2.2.2.2.2.2.2.2.2.1, List.map VestInfo.ofDen d.2.2.2.2.2.2.2.2.2.2.2.2.2.2.2.2.1, List.map LoanInfo.ofDen d.2.2.2.2.2.2.2.2.2.2.2.2.2.2.2.2.2.1, Inv401KSummaryPeriod.ofDen d.2.2.2.2.2.2.2.2.2.2.2.2.2.2.2.2.2.2.1, Option.map Inv401KSummaryPeriod.ofDen d.2.2.2.2.2.2.2.2.2.2.2.2.2.2.2.2.2.2.2.1, Option.map Inv401KSummaryPeriod.ofDen d.2.2.2.2.2.2.2.2.2.2.2.2.2.2.2.2.2.2.2.2.1⟩
@[simp] theorem Inv401K.ofDen_toDen (x : Inv401K) : Inv401K.ofDen (Inv401K.toDen x) = x := by
  simp [Inv401K.toDen, Inv401K.ofDen, Function.comp_def]
theorem Inv401K.toDen_ofDen (d : Inv401K.ty.Den) : Inv401K.toDen (Inv401K.ofDen d) = d :=
  Prod.ext rfl (Prod.ext rfl (Prod.ext rfl (Prod.ext rfl (Prod.ext rfl (Prod.ext rfl (Prod.ext rfl (Prod.ext rfl (Prod.ext rfl (Prod.ext rfl (Prod.ext rfl (Prod.ext rfl (Prod.ext rfl (Prod.ext rfl (Prod.ext (listInv ContribSecurity.toDen_ofDen _) (Prod.ext rfl (Prod.ext (listInv VestInfo.toDen_ofDen _) (Prod.ext (listInv LoanInfo.toDen_ofDen _) (Prod.ext (Inv401KSummaryPeriod.toDen_ofDen _) (Prod.ext (optInv Inv401KSummaryPeriod.toDen_ofDen _) (Prod.ext (optInv Inv401KSummaryPeriod.toDen_ofDen _) (rfl)))))))))))))))))))))

/-- invstmt.go 1467-1479 -/
def Inv401KBal.fields : Fields :=
  .field [] "CASHBAL".toList true (.leaf .amount) <|
  .field [] "PRETAX".toList true (.leaf .amount) <|
  .field [] "AFTERTAX".toList true (.leaf .amount) <|
  .field [] "MATCH".toList true (.leaf .amount) <|
  .field [] "PROFITSHARING".toList true (.leaf .amount) <|
  .field [] "ROLLOVER".toList true (.leaf .amount) <|
  .field [] "OTHERVEST".toList true (.leaf .amount) <|
  .field [] "OTHERNONVEST".toList true (.leaf .amount) <|
  .field [] "TOTAL".toList false (.leaf .amount) <|
  .field ["BALLIST".toList] "BAL".toList true (.slice Balance.ty) <|
  .nil
/-- invstmt.go 1467-1479: schema. -/
def Inv401KBal.ty : Ty := .struct (.tag "INV401KBAL".toList) Inv401KBal.fields
/-- invstmt.go 1467-1479: conversion to a value of the schema. -/
def Inv401KBal.toDen (x : Inv401KBal) : Inv401KBal.ty.Den :=
  ((), x.CashBal, x.PreTax, x.AfterTax, x.Match, x.ProfitSharing, x.Rollover, x.OtherVest, x.OtherNonVest, x.Total, List.map Balance.toDen x.BalList, ())
/-- invstmt.go 1467-1479: conversion from a value of the schema. -/
def Inv401KBal.ofDen (d : Inv401KBal.ty.Den) : Inv401KBal :=
  ⟨d.2.1, d.2.2.1, d.2.2.2.1, d.2.2.2.2.1, d.2.2.2.2.2.1, d.2.2.2.2.2.2.1, d.2.2.2.2.2.2.2.1, d.2.2.2.2.2.2.2.2.1, d.2.2.2.2.2.2.2.2.2.1, List.map Balance.ofDen d.2.2.2.2.2.2.2.2.2.2.1⟩
@[simp] theorem Inv401KBal.ofDen_toDen (x : Inv401KBal) : Inv401KBal.ofDen (Inv401KBal.toDen x) = x := by
  simp [Inv401KBal.toDen, Inv401KBal.ofDen, Function.comp_def]
theorem Inv401KBal.toDen_ofDen (d : Inv401KBal.ty.Den) : Inv401KBal.toDen (Inv401KBal.ofDen d) = d :=
  Prod.ext rfl (Prod.ext rfl (Prod.ext rfl (Prod.ext rfl (Prod.ext rfl (Prod.ext rfl (Prod.ext rfl (Prod.ext rfl (Prod.ext rfl (Prod.ext rfl (Prod.ext (listInv Balance.toDen_ofDen _) (rfl)))))))))))

/-- Concrete types of Position with the names used to read and write them. -/
def Position.alts : Alts :=
  .alt "POSDEBT".toList "POSDEBT".toList DebtPosition.ty <|
  .alt "POSMF".toList "POSMF".toList MFPosition.ty <|
  .alt "POSOPT".toList "POSOPT".toList OptPosition.ty <|
  .alt "POSOTHER".toList "POSOTHER".toList OtherPosition.ty <|
  .alt "POSSTOCK".toList "POSSTOCK".toList StockPosition.ty <|
  .nil
/-- invstmt.go 846: the concrete types accepted by the list that holds this interface.: conversion to a value of the schema. -/
def Position.toDen : Position → Position.alts.Den
  | .debtPosition v => .inl (DebtPosition.toDen v)
  | .mfPosition v => .inr (.inl (MFPosition.toDen v))
  | .optPosition v => .inr (.inr (.inl (OptPosition.toDen v)))
  | .otherPosition v => .inr (.inr (.inr (.inl (OtherPosition.toDen v))))
  | .stockPosition v => .inr (.inr (.inr (.inr (.inl (StockPosition.toDen v)))))
/-- invstmt.go 846: the concrete types accepted by the list that holds this interface.: conversion from a value of the schema. -/
def Position.ofDen : Position.alts.Den → Position
  | .inl v => .debtPosition (DebtPosition.ofDen v)
  | .inr (.inl v) => .mfPosition (MFPosition.ofDen v)
  | .inr (.inr (.inl v)) => .optPosition (OptPosition.ofDen v)
  | .inr (.inr (.inr (.inl v))) => .otherPosition (OtherPosition.ofDen v)
  | .inr (.inr (.inr (.inr (.inl v)))) => .stockPosition (StockPosition.ofDen v)
@[simp] theorem Position.ofDen_toDen (x : Position) : Position.ofDen (Position.toDen x) = x := by
  cases x <;> simp [Position.toDen, Position.ofDen]
theorem Position.toDen_ofDen : (d : Position.alts.Den) → Position.toDen (Position.ofDen d) = d
  | .inl v => congrArg Sum.inl (DebtPosition.toDen_ofDen v)
  | .inr (.inl v) => congrArg Sum.inr (congrArg Sum.inl (MFPosition.toDen_ofDen v))
  | .inr (.inr (.inl v)) => congrArg Sum.inr (congrArg Sum.inr (congrArg Sum.inl (OptPosition.toDen_ofDen v)))
  | .inr (.inr (.inr (.inl v))) => congrArg Sum.inr (congrArg Sum.inr (congrArg Sum.inr (congrArg Sum.inl (OtherPosition.toDen_ofDen v))))
  | .inr (.inr (.inr (.inr (.inl v)))) => congrArg Sum.inr (congrArg Sum.inr (congrArg Sum.inr (congrArg Sum.inr (congrArg Sum.inl (StockPosition.toDen_ofDen v)))))

/-- invstmt.go 945-992 `PositionList.UnmarshalXML`, 995-1031 `MarshalXML` -/
def PositionList.fields : Fields := .alts Position.alts .nil
/-- invstmt.go 942: schema. -/
def PositionList.ty : Ty := .closed "INVPOSLIST".toList true PositionList.fields
/-- invstmt.go 942: conversion to a value of the schema. -/
def PositionList.toDen (x : PositionList) : PositionList.ty.Den := (List.map Position.toDen x, ())
/-- invstmt.go 942: conversion from a value of the schema. -/
def PositionList.ofDen (d : PositionList.ty.Den) : PositionList := List.map Position.ofDen d.1
@[simp] theorem PositionList.ofDen_toDen (x : PositionList) : PositionList.ofDen (PositionList.toDen x) = x := by
  simp [PositionList.toDen, PositionList.ofDen, Function.comp_def]
theorem PositionList.toDen_ofDen (d : PositionList.ty.Den) : PositionList.toDen (PositionList.ofDen d) = d :=
  Prod.ext (listInv Position.toDen_ofDen _) (rfl)

/-- Concrete types of OpenOrder with the names used to read and write them. -/
def OpenOrder.alts : Alts :=
  .alt "OOBUYDEBT".toList "OOBUYDEBT".toList OOBuyDebt.ty <|
  .alt "OOBUYMF".toList "OOBUYMF".toList OOBuyMF.ty <|
  .alt "OOBUYOPT".toList "OOBUYOPT".toList OOBuyOpt.ty <|
  .alt "OOBUYOTHER".toList "OOBUYOTHER".toList OOBuyOther.ty <|
  .alt "OOBUYSTOCK".toList "OOBUYSTOCK".toList OOBuyStock.ty <|
  .alt "OOSELLDEBT".toList "OOSELLDEBT".toList OOSellDebt.ty <|
  .alt "OOSELLMF".toList "OOSELLMF".toList OOSellMF.ty <|
  .alt "OOSELLOPT".toList "OOSELLOPT".toList OOSellOpt.ty <|
  .alt "OOSELLOTHER".toList "OOSELLOTHER".toList OOSellOther.ty <|
  .alt "OOSELLSTOCK".toList "OOSELLSTOCK".toList OOSellStock.ty <|
  .alt "SWITCHMF".toList "SWITCHMF".toList OOSwitchMF.ty <|
  .nil
/-- invstmt.go 1066: the concrete types accepted by the list that holds this interface.: conversion to a value of the schema. -/
def OpenOrder.toDen : OpenOrder → OpenOrder.alts.Den
  | .ooBuyDebt v => .inl (OOBuyDebt.toDen v)
  | .ooBuyMF v => .inr (.inl (OOBuyMF.toDen v))
  | .ooBuyOpt v => .inr (.inr (.inl (OOBuyOpt.toDen v)))
  | .ooBuyOther v => .inr (.inr (.inr (.inl (OOBuyOther.toDen v))))
  | .ooBuyStock v => .inr (.inr (.inr (.inr (.inl (OOBuyStock.toDen v)))))
  | .ooSellDebt v => .inr (.inr (.inr (.inr (.inr (.inl (OOSellDebt.toDen v))))))
  | .ooSellMF v => .inr (.inr (.inr (.inr (.inr (.inr (.inl (OOSellMF.toDen v)))))))
  | .ooSellOpt v => .inr (.inr (.inr (.inr (.inr (.inr (.inr (.inl (OOSellOpt.toDen v))))))))
  | .ooSellOther v => .inr (.inr (.inr (.inr (.inr (.inr (.inr (.inr (.inl (OOSellOther.toDen v)))))))))
  | .ooSellStock v => .inr (.inr (.inr (.inr (.inr (.inr (.inr (.inr (.inr (.inl (OOSellStock.toDen v))))))))))
  | .ooSwitchMF v => .inr (.inr (.inr (.inr (.inr (.inr (.inr (.inr (.inr (.inr (.inl (OOSwitchMF.toDen v)))))))))))
/-- invstmt.go 1066: the concrete types accepted by the list that holds this interface.: conversion from a value of the schema. -/
def OpenOrder.ofDen : OpenOrder.alts.Den → OpenOrder
  | .inl v => .ooBuyDebt (OOBuyDebt.ofDen v)
  | .inr (.inl v) => .ooBuyMF (OOBuyMF.ofDen v)
  | .inr (.inr (.inl v)) => .ooBuyOpt (OOBuyOpt.ofDen v)
  | .inr (.inr (.inr (.inl v))) => .ooBuyOther (OOBuyOther.ofDen v)
  | .inr (.inr (.inr (.inr (.inl v)))) => .ooBuyStock (OOBuyStock.ofDen v)
  | .inr (.inr (.inr (.inr (.inr (.inl v))))) => .ooSellDebt (OOSellDebt.ofDen v)
  | .inr (.inr (.inr (.inr (.inr (.inr (.inl v)))))) => .ooSellMF (OOSellMF.ofDen v)
  | .inr (.inr (.inr (.inr (.inr (.inr (.inr (.inl v))))))) => .ooSellOpt (OOSellOpt.ofDen v)
  | .inr (.inr (.inr (.inr (.inr (.inr (.inr (.inr (.inl v)))))))) => .ooSellOther (OOSellOther.ofDen v)
  | .inr (.inr (.inr (.inr (.inr (.inr (.inr (.inr (.inr (.inl v))))))))) => .ooSellStock (OOSellStock.ofDen v)
  | .inr (.inr (.inr (.inr (.inr (.inr (.inr (.inr (.inr (.inr (.inl v)))))))))) => .ooSwitchMF (OOSwitchMF.ofDen v)
@[simp] theorem OpenOrder.ofDen_toDen (x : OpenOrder) : OpenOrder.ofDen (OpenOrder.toDen x) = x := by
  cases x <;> simp [OpenOrder.toDen, OpenOrder.ofDen]
theorem OpenOrder.toDen_ofDen : (d : OpenOrder.alts.Den) → OpenOrder.toDen (OpenOrder.ofDen d) = d
  | .inl v => congrArg Sum.inl (OOBuyDebt.toDen_ofDen v)
  | .inr (.inl v) => congrArg Sum.inr (congrArg Sum.inl (OOBuyMF.toDen_ofDen v))
  | .inr (.inr (.inl v)) => congrArg Sum.inr (congrArg Sum.inr (congrArg Sum.inl (OOBuyOpt.toDen_ofDen v)))
  | .inr (.inr (.inr (.inl v))) => congrArg Sum.inr (congrArg Sum.inr (congrArg Sum.inr (congrArg Sum.inl (OOBuyOther.toDen_ofDen v))))
  | .inr (.inr (.inr (.inr (.inl v)))) => congrArg Sum.inr (congrArg Sum.inr (congrArg Sum.inr (congrArg Sum.inr (congrArg Sum.inl (OOBuyStock.toDen_ofDen v)))))
  | .inr (.inr (.inr (.inr (.inr (.inl v))))) => congrArg Sum.inr (congrArg Sum.inr (congrArg Sum.inr (congrArg Sum.inr (congrArg Sum.inr (congrArg Sum.inl (OOSellDebt.toDen_ofDen v))))))
  | .inr (.inr (.inr (.inr (.inr (.inr (.inl v)))))) => congrArg Sum.inr (congrArg Sum.inr (congrArg Sum.inr (congrArg Sum.inr (congrArg Sum.inr (congrArg Sum.inr (congrArg Sum.inl (OOSellMF.toDen_ofDen v)))))))
  | .inr (.inr (.inr (.inr (.inr (.inr (.inr (.inl v))))))) => congrArg Sum.inr (congrArg Sum.inr (congrArg Sum.inr (congrArg Sum.inr (congrArg Sum.inr (congrArg Sum.inr (congrArg Sum.inr (congrArg Sum.inl (OOSellOpt.toDen_ofDen v))))))))
  | .inr (.inr (.inr (.inr (.inr (.inr (.inr (.inr (.inl v)))))))) => congrArg Sum.inr (congrArg Sum.inr (congrArg Sum.inr (congrArg Sum.inr (congrArg Sum.inr (congrArg Sum.inr (congrArg Sum.inr (congrArg Sum.inr (congrArg Sum.inl (OOSellOther.toDen_ofDen v)))))))))
  | .inr (.inr (.inr (.inr (.inr (.inr (.inr (.inr (.inr (.inl v))))))))) => congrArg Sum.inr (congrArg Sum.inr (congrArg Sum.inr (congrArg Sum.inr (congrArg Sum.inr (congrArg Sum.inr (congrArg Sum.inr (congrArg Sum.inr (congrArg Sum.inr (congrArg Sum.inl (OOSellStock.toDen_ofDen v))))))))))
  | .inr (.inr (.inr (.inr (.inr (.inr (.inr (.inr (.inr (.inr (.inl v)))))))))) => congrArg Sum.inr (congrArg Sum.inr (congrArg Sum.inr (congrArg Sum.inr (congrArg Sum.inr (congrArg Sum.inr (congrArg Sum.inr (congrArg Sum.inr (congrArg Sum.inr (congrArg Sum.inr (congrArg Sum.inl (OOSwitchMF.toDen_ofDen v)))))))))))

/-- invstmt.go 1214-1297 `OOList.UnmarshalXML`, 1300-1360 `MarshalXML` -/
def OOList.fields : Fields := .alts OpenOrder.alts .nil
/-- invstmt.go 1211: schema. -/
def OOList.ty : Ty := .closed "INVOOLIST".toList true OOList.fields
/-- invstmt.go 1211: conversion to a value of the schema. -/
def OOList.toDen (x : OOList) : OOList.ty.Den := (List.map OpenOrder.toDen x, ())
/-- invstmt.go 1211: conversion from a value of the schema. -/
def OOList.ofDen (d : OOList.ty.Den) : OOList := List.map OpenOrder.ofDen d.1
@[simp] theorem OOList.ofDen_toDen (x : OOList) : OOList.ofDen (OOList.toDen x) = x := by
  simp [OOList.toDen, OOList.ofDen, Function.comp_def]
theorem OOList.toDen_ofDen (d : OOList.ty.Den) : OOList.toDen (OOList.ofDen d) = d :=
  Prod.ext (listInv OpenOrder.toDen_ofDen _) (rfl)

/-- invstmt.go 1485-1501 -/
def InvStatementResponse.fields : Fields :=
  .field [] "TRNUID".toList false (.leaf .uid) <|
  .field [] "STATUS".toList false Status.ty <|
  .field [] "CLTCOOKIE".toList true (.leaf .str) <|
  .field ["INVSTMTRS".toList] "DTASOF".toList false (.leaf .date) <|
  .field ["INVSTMTRS".toList] "CURDEF".toList false (.leaf .curr) <|
  .field ["INVSTMTRS".toList] "INVACCTFROM".toList false InvAcct.ty <|
  .field ["INVSTMTRS".toList] "INVTRANLIST".toList true (.ptr InvTranList.ty) <|
  .field ["INVSTMTRS".toList] "INVPOSLIST".toList true PositionList.ty <|
  .field ["INVSTMTRS".toList] "INVBAL".toList true (.ptr InvBalance.ty) <|
  .field ["INVSTMTRS".toList] "INVOOLIST".toList true OOList.ty <|
  .field ["INVSTMTRS".toList] "MKTGINFO".toList true (.leaf .str) <|
  .field ["INVSTMTRS".toList] "INV401K".toList true (.ptr Inv401K.ty) <|
  .field ["INVSTMTRS".toList] "INV401KBAL".toList true (.ptr Inv401KBal.ty) <|
  .nil
/-- invstmt.go 1485-1501: schema. -/
def InvStatementResponse.ty : Ty := .struct (.tag "INVSTMTTRNRS".toList) InvStatementResponse.fields
/-- invstmt.go 1485-1501: conversion to a value of the schema. -/
def InvStatementResponse.toDen (x : InvStatementResponse) : InvStatementResponse.ty.Den :=
  ((), x.TrnUID, Status.toDen x.Status, x.CltCookie, x.DtAsOf, x.CurDef, InvAcct.toDen x.InvAcctFrom, Option.map InvTranList.toDen x.InvTranList, PositionList.toDen x.InvPosList, Option.map InvBalance.toDen x.InvBal, OOList.toDen x.InvOOList, x.MktgInfo, Option.map Inv401K.toDen x.Inv401K, Option.map Inv401KBal.toDen x.Inv401KBal, ())
/-- invstmt.go 1485-1501: conversion from a value of the schema. -/
def InvStatementResponse.ofDen (d : InvStatementResponse.ty.Den) : InvStatementResponse :=
  ⟨d.2.1, Status.ofDen d.2.2.1, d.2.2.2.1, d.2.2.2.2.1, d.2.2.2.2.2.1, InvAcct.ofDen d.2.2.2.2.2.2.1, Option.map InvTranList.ofDen d.2.2.2.2.2.2.2.1, PositionList.ofDen d.2.2.2.2.2.2.2.2.1, Option.map InvBalance.ofDen d.2.2.2.2.2.2.2.2.2.1, OOList.ofDen d.2.2.2.2.2.2.2.2.2.2.1, d.2.2.2.2.2.2.2.2.2.2.2.1, Option.map Inv401K.ofDen d.2.2.2.2.2.2.2.2.2.2.2.2.1, Option.map Inv401KBal.ofDen d.2.2.2.2.2.2.2.2.2.2.2.2.2.1⟩
@[simp] theorem InvStatementResponse.ofDen_toDen (x : InvStatementResponse) : InvStatementResponse.ofDen (InvStatementResponse.toDen x) = x := by
  simp [InvStatementResponse.toDen, InvStatementResponse.ofDen, Function.comp_def]
theorem InvStatementResponse.toDen_ofDen (d : InvStatementResponse.ty.Den) : InvStatementResponse.toDen (InvStatementResponse.ofDen d) = d :=
  Prod.ext rfl (Prod.ext rfl (Prod.ext (Status.toDen_ofDen _) (Prod.ext rfl (Prod.ext rfl (Prod.ext rfl (Prod.ext (InvAcct.toDen_ofDen _) (Prod.ext (optInv InvTranList.toDen_ofDen _) (Prod.ext (PositionList.toDen_ofDen _) (Prod.ext (optInv InvBalance.toDen_ofDen _) (Prod.ext (OOList.toDen_ofDen _) (Prod.ext rfl (Prod.ext (optInv Inv401K.toDen_ofDen _) (Prod.ext (optInv Inv401KBal.toDen_ofDen _) (rfl))))))))))))))

end Ofx
