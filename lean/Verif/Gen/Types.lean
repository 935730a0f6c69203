import Verif.Codec.Type
import Verif.Gen.Schema
/-
GENERATED by tools/gen_structs.py -- do not edit.

Every Go struct (and list type) of the messages is an `OfxType`: its schema is
well-formed, checked by the kernel over the whole schema.
-/
namespace Ofx

theorem Status.wf : Status.fields.wf Status.fields = true := by decide +kernel
/-- common.go 264-269. -/
instance : OfxType Status where
  ty := Status.ty
  toDen := Status.toDen
  ofDen := Status.ofDen
  ofDen_toDen := Status.ofDen_toDen
  toDen_ofDen := Status.toDen_ofDen
  lit := none
  single := rfl
  wf := fun _ _ => struct_wf Status.wf

theorem BankAcct.wf : BankAcct.fields.wf BankAcct.fields = true := by decide +kernel
/-- common.go 308-315. -/
instance : OfxType BankAcct where
  ty := BankAcct.ty
  toDen := BankAcct.toDen
  ofDen := BankAcct.ofDen
  ofDen_toDen := BankAcct.ofDen_toDen
  toDen_ofDen := BankAcct.toDen_ofDen
  lit := none
  single := rfl
  wf := fun _ _ => struct_wf BankAcct.wf

theorem CCAcct.wf : CCAcct.fields.wf CCAcct.fields = true := by decide +kernel
/-- common.go 332-336. -/
instance : OfxType CCAcct where
  ty := CCAcct.ty
  toDen := CCAcct.toDen
  ofDen := CCAcct.ofDen
  ofDen_toDen := CCAcct.ofDen_toDen
  toDen_ofDen := CCAcct.toDen_ofDen
  lit := none
  single := rfl
  wf := fun _ _ => struct_wf CCAcct.wf

theorem InvAcct.wf : InvAcct.fields.wf InvAcct.fields = true := by decide +kernel
/-- common.go 347-351. -/
instance : OfxType InvAcct where
  ty := InvAcct.ty
  toDen := InvAcct.toDen
  ofDen := InvAcct.ofDen
  ofDen_toDen := InvAcct.ofDen_toDen
  toDen_ofDen := InvAcct.toDen_ofDen
  lit := none
  single := rfl
  wf := fun _ _ => struct_wf InvAcct.wf

theorem Currency.wf : Currency.fields.wf Currency.fields = true := by decide +kernel
/-- common.go 358-362. -/
instance : OfxType Currency where
  ty := Currency.ty
  toDen := Currency.toDen
  ofDen := Currency.ofDen
  ofDen_toDen := Currency.ofDen_toDen
  toDen_ofDen := Currency.toDen_ofDen
  lit := none
  single := rfl
  wf := fun _ _ => struct_wf Currency.wf

theorem StatementRequest.wf : StatementRequest.fields.wf StatementRequest.fields = true := by decide +kernel
/-- bank.go 12-24. -/
instance : OfxType StatementRequest where
  ty := StatementRequest.ty
  toDen := StatementRequest.toDen
  ofDen := StatementRequest.ofDen
  ofDen_toDen := StatementRequest.ofDen_toDen
  toDen_ofDen := StatementRequest.toDen_ofDen
  lit := none
  single := rfl
  wf := fun _ _ => struct_wf StatementRequest.wf

theorem Payee.wf : Payee.fields.wf Payee.fields = true := by decide +kernel
/-- bank.go 53-64. -/
instance : OfxType Payee where
  ty := Payee.ty
  toDen := Payee.toDen
  ofDen := Payee.ofDen
  ofDen_toDen := Payee.ofDen_toDen
  toDen_ofDen := Payee.toDen_ofDen
  lit := none
  single := rfl
  wf := fun _ _ => struct_wf Payee.wf

theorem ImageData.wf : ImageData.fields.wf ImageData.fields = true := by decide +kernel
/-- bank.go 88-98. -/
instance : OfxType ImageData where
  ty := ImageData.ty
  toDen := ImageData.toDen
  ofDen := ImageData.ofDen
  ofDen_toDen := ImageData.ofDen_toDen
  toDen_ofDen := ImageData.toDen_ofDen
  lit := none
  single := rfl
  wf := fun _ _ => struct_wf ImageData.wf

theorem Transaction.wf : Transaction.fields.wf Transaction.fields = true := by decide +kernel
/-- bank.go 104-132. -/
instance : OfxType Transaction where
  ty := Transaction.ty
  toDen := Transaction.toDen
  ofDen := Transaction.ofDen
  ofDen_toDen := Transaction.ofDen_toDen
  toDen_ofDen := Transaction.toDen_ofDen
  lit := none
  single := rfl
  wf := fun _ _ => struct_wf Transaction.wf

theorem TransactionList.wf : TransactionList.fields.wf TransactionList.fields = true := by decide +kernel
/-- bank.go 184-189. -/
instance : OfxType TransactionList where
  ty := TransactionList.ty
  toDen := TransactionList.toDen
  ofDen := TransactionList.ofDen
  ofDen_toDen := TransactionList.ofDen_toDen
  toDen_ofDen := TransactionList.toDen_ofDen
  lit := none
  single := rfl
  wf := fun _ _ => struct_wf TransactionList.wf

theorem PendingTransaction.wf : PendingTransaction.fields.wf PendingTransaction.fields = true := by decide +kernel
/-- bank.go 211-226. -/
instance : OfxType PendingTransaction where
  ty := PendingTransaction.ty
  toDen := PendingTransaction.toDen
  ofDen := PendingTransaction.ofDen
  ofDen_toDen := PendingTransaction.ofDen_toDen
  toDen_ofDen := PendingTransaction.toDen_ofDen
  lit := none
  single := rfl
  wf := fun _ _ => struct_wf PendingTransaction.wf

theorem PendingTransactionList.wf : PendingTransactionList.fields.wf PendingTransactionList.fields = true := by decide +kernel
/-- bank.go 248-252. -/
instance : OfxType PendingTransactionList where
  ty := PendingTransactionList.ty
  toDen := PendingTransactionList.toDen
  ofDen := PendingTransactionList.ofDen
  ofDen_toDen := PendingTransactionList.ofDen_toDen
  toDen_ofDen := PendingTransactionList.toDen_ofDen
  lit := none
  single := rfl
  wf := fun _ _ => struct_wf PendingTransactionList.wf

theorem Balance.wf : Balance.fields.wf Balance.fields = true := by decide +kernel
/-- bank.go 270-284. -/
instance : OfxType Balance where
  ty := Balance.ty
  toDen := Balance.toDen
  ofDen := Balance.ofDen
  ofDen_toDen := Balance.ofDen_toDen
  toDen_ofDen := Balance.toDen_ofDen
  lit := none
  single := rfl
  wf := fun _ _ => struct_wf Balance.wf

theorem StatementResponse.wf : StatementResponse.fields.wf StatementResponse.fields = true := by decide +kernel
/-- bank.go 300-318. -/
instance : OfxType StatementResponse where
  ty := StatementResponse.ty
  toDen := StatementResponse.toDen
  ofDen := StatementResponse.ofDen
  ofDen_toDen := StatementResponse.ofDen_toDen
  toDen_ofDen := StatementResponse.toDen_ofDen
  lit := none
  single := rfl
  wf := fun _ _ => struct_wf StatementResponse.wf

theorem CCStatementRequest.wf : CCStatementRequest.fields.wf CCStatementRequest.fields = true := by decide +kernel
/-- creditcard.go 10-22. -/
instance : OfxType CCStatementRequest where
  ty := CCStatementRequest.ty
  toDen := CCStatementRequest.toDen
  ofDen := CCStatementRequest.ofDen
  ofDen_toDen := CCStatementRequest.ofDen_toDen
  toDen_ofDen := CCStatementRequest.toDen_ofDen
  lit := none
  single := rfl
  wf := fun _ _ => struct_wf CCStatementRequest.wf

theorem CCStatementResponse.wf : CCStatementResponse.fields.wf CCStatementResponse.fields = true := by decide +kernel
/-- creditcard.go 48-71. -/
instance : OfxType CCStatementResponse where
  ty := CCStatementResponse.ty
  toDen := CCStatementResponse.toDen
  ofDen := CCStatementResponse.ofDen
  ofDen_toDen := CCStatementResponse.ofDen_toDen
  toDen_ofDen := CCStatementResponse.toDen_ofDen
  lit := none
  single := rfl
  wf := fun _ _ => struct_wf CCStatementResponse.wf

theorem SignonRequest.wf : SignonRequest.fields.wf SignonRequest.fields = true := by decide +kernel
/-- signon.go 11-24. -/
instance : OfxType SignonRequest where
  ty := SignonRequest.ty
  toDen := SignonRequest.toDen
  ofDen := SignonRequest.ofDen
  ofDen_toDen := SignonRequest.ofDen_toDen
  toDen_ofDen := SignonRequest.toDen_ofDen
  lit := none
  single := rfl
  wf := fun _ _ => struct_wf SignonRequest.wf

theorem SignonResponse.wf : SignonResponse.fields.wf SignonResponse.fields = true := by decide +kernel
/-- signon.go 62-75. -/
instance : OfxType SignonResponse where
  ty := SignonResponse.ty
  toDen := SignonResponse.toDen
  ofDen := SignonResponse.ofDen
  ofDen_toDen := SignonResponse.ofDen_toDen
  toDen_ofDen := SignonResponse.toDen_ofDen
  lit := none
  single := rfl
  wf := fun _ _ => struct_wf SignonResponse.wf

theorem AcctInfoRequest.wf : AcctInfoRequest.fields.wf AcctInfoRequest.fields = true := by decide +kernel
/-- signup.go 10-17. -/
instance : OfxType AcctInfoRequest where
  ty := AcctInfoRequest.ty
  toDen := AcctInfoRequest.toDen
  ofDen := AcctInfoRequest.ofDen
  ofDen_toDen := AcctInfoRequest.ofDen_toDen
  toDen_ofDen := AcctInfoRequest.toDen_ofDen
  lit := none
  single := rfl
  wf := fun _ _ => struct_wf AcctInfoRequest.wf

theorem HolderInfo.wf : HolderInfo.fields.wf HolderInfo.fields = true := by decide +kernel
/-- signup.go 41-57. -/
instance : OfxType HolderInfo where
  ty := HolderInfo.ty
  toDen := HolderInfo.toDen
  ofDen := HolderInfo.ofDen
  ofDen_toDen := HolderInfo.ofDen_toDen
  toDen_ofDen := HolderInfo.toDen_ofDen
  lit := none
  single := rfl
  wf := fun _ _ => struct_wf HolderInfo.wf

theorem BankAcctInfo.wf : BankAcctInfo.fields.wf BankAcctInfo.fields = true := by decide +kernel
/-- signup.go 62-74. -/
instance : OfxType BankAcctInfo where
  ty := BankAcctInfo.ty
  toDen := BankAcctInfo.toDen
  ofDen := BankAcctInfo.ofDen
  ofDen_toDen := BankAcctInfo.ofDen_toDen
  toDen_ofDen := BankAcctInfo.toDen_ofDen
  lit := none
  single := rfl
  wf := fun _ _ => struct_wf BankAcctInfo.wf

theorem CCAcctInfo.wf : CCAcctInfo.fields.wf CCAcctInfo.fields = true := by decide +kernel
/-- signup.go 84-92. -/
instance : OfxType CCAcctInfo where
  ty := CCAcctInfo.ty
  toDen := CCAcctInfo.toDen
  ofDen := CCAcctInfo.ofDen
  ofDen_toDen := CCAcctInfo.ofDen_toDen
  toDen_ofDen := CCAcctInfo.toDen_ofDen
  lit := none
  single := rfl
  wf := fun _ _ => struct_wf CCAcctInfo.wf

theorem InvAcctInfo.wf : InvAcctInfo.fields.wf InvAcctInfo.fields = true := by decide +kernel
/-- signup.go 102-110. -/
instance : OfxType InvAcctInfo where
  ty := InvAcctInfo.ty
  toDen := InvAcctInfo.toDen
  ofDen := InvAcctInfo.ofDen
  ofDen_toDen := InvAcctInfo.ofDen_toDen
  toDen_ofDen := InvAcctInfo.toDen_ofDen
  lit := none
  single := rfl
  wf := fun _ _ => struct_wf InvAcctInfo.wf

theorem AcctInfo.wf : AcctInfo.fields.wf AcctInfo.fields = true := by decide +kernel
/-- signup.go 120-134. -/
instance : OfxType AcctInfo where
  ty := AcctInfo.ty
  toDen := AcctInfo.toDen
  ofDen := AcctInfo.ofDen
  ofDen_toDen := AcctInfo.ofDen_toDen
  toDen_ofDen := AcctInfo.toDen_ofDen
  lit := none
  single := rfl
  wf := fun _ _ => struct_wf AcctInfo.wf

theorem AcctInfoResponse.wf : AcctInfoResponse.fields.wf AcctInfoResponse.fields = true := by decide +kernel
/-- signup.go 138-146. -/
instance : OfxType AcctInfoResponse where
  ty := AcctInfoResponse.ty
  toDen := AcctInfoResponse.toDen
  ofDen := AcctInfoResponse.ofDen
  ofDen_toDen := AcctInfoResponse.ofDen_toDen
  toDen_ofDen := AcctInfoResponse.toDen_ofDen
  lit := none
  single := rfl
  wf := fun _ _ => struct_wf AcctInfoResponse.wf

theorem ProfileRequest.wf : ProfileRequest.fields.wf ProfileRequest.fields = true := by decide +kernel
/-- profile.go 12-20. -/
instance : OfxType ProfileRequest where
  ty := ProfileRequest.ty
  toDen := ProfileRequest.toDen
  ofDen := ProfileRequest.ofDen
  ofDen_toDen := ProfileRequest.ofDen_toDen
  toDen_ofDen := ProfileRequest.toDen_ofDen
  lit := none
  single := rfl
  wf := fun _ _ => struct_wf ProfileRequest.wf

theorem SignonInfo.wf : SignonInfo.fields.wf SignonInfo.fields = true := by decide +kernel
/-- profile.go 48-68. -/
instance : OfxType SignonInfo where
  ty := SignonInfo.ty
  toDen := SignonInfo.toDen
  ofDen := SignonInfo.ofDen
  ofDen_toDen := SignonInfo.ofDen_toDen
  toDen_ofDen := SignonInfo.toDen_ofDen
  lit := none
  single := rfl
  wf := fun _ _ => struct_wf SignonInfo.wf

theorem MessageSetList.wf : MessageSetList.ty.wf "MSGSETLIST".toList false = true := by decide +kernel
/-- profile.go 90. -/
instance : OfxType MessageSetList where
  ty := MessageSetList.ty
  toDen := MessageSetList.toDen
  ofDen := MessageSetList.ofDen
  ofDen_toDen := MessageSetList.ofDen_toDen
  toDen_ofDen := MessageSetList.toDen_ofDen
  lit := some "MSGSETLIST".toList
  single := rfl
  wf := fun _ h => (h _ rfl) ▸ MessageSetList.wf

theorem ProfileResponse.wf : ProfileResponse.fields.wf ProfileResponse.fields = true := by decide +kernel
/-- profile.go 164-186. -/
instance : OfxType ProfileResponse where
  ty := ProfileResponse.ty
  toDen := ProfileResponse.toDen
  ofDen := ProfileResponse.ofDen
  ofDen_toDen := ProfileResponse.ofDen_toDen
  toDen_ofDen := ProfileResponse.toDen_ofDen
  lit := none
  single := rfl
  wf := fun _ _ => struct_wf ProfileResponse.wf

theorem SecurityID.wf : SecurityID.fields.wf SecurityID.fields = true := by decide +kernel
/-- seclist.go 10-14. -/
instance : OfxType SecurityID where
  ty := SecurityID.ty
  toDen := SecurityID.toDen
  ofDen := SecurityID.ofDen
  ofDen_toDen := SecurityID.ofDen_toDen
  toDen_ofDen := SecurityID.toDen_ofDen
  lit := none
  single := rfl
  wf := fun _ _ => struct_wf SecurityID.wf

theorem SecurityRequest.wf : SecurityRequest.fields.wf SecurityRequest.fields = true := by decide +kernel
/-- seclist.go 19-25. -/
instance : OfxType SecurityRequest where
  ty := SecurityRequest.ty
  toDen := SecurityRequest.toDen
  ofDen := SecurityRequest.ofDen
  ofDen_toDen := SecurityRequest.ofDen_toDen
  toDen_ofDen := SecurityRequest.toDen_ofDen
  lit := none
  single := rfl
  wf := fun _ _ => struct_wf SecurityRequest.wf

theorem SecListRequest.wf : SecListRequest.fields.wf SecListRequest.fields = true := by decide +kernel
/-- seclist.go 29-36. -/
instance : OfxType SecListRequest where
  ty := SecListRequest.ty
  toDen := SecListRequest.toDen
  ofDen := SecListRequest.ofDen
  ofDen_toDen := SecListRequest.ofDen_toDen
  toDen_ofDen := SecListRequest.toDen_ofDen
  lit := none
  single := rfl
  wf := fun _ _ => struct_wf SecListRequest.wf

theorem SecListResponse.wf : SecListResponse.fields.wf SecListResponse.fields = true := by decide +kernel
/-- seclist.go 64-71. -/
instance : OfxType SecListResponse where
  ty := SecListResponse.ty
  toDen := SecListResponse.toDen
  ofDen := SecListResponse.ofDen
  ofDen_toDen := SecListResponse.ofDen_toDen
  toDen_ofDen := SecListResponse.toDen_ofDen
  lit := none
  single := rfl
  wf := fun _ _ => struct_wf SecListResponse.wf

theorem SecInfo.wf : SecInfo.fields.wf SecInfo.fields = true := by decide +kernel
/-- seclist.go 102-113. -/
instance : OfxType SecInfo where
  ty := SecInfo.ty
  toDen := SecInfo.toDen
  ofDen := SecInfo.ofDen
  ofDen_toDen := SecInfo.ofDen_toDen
  toDen_ofDen := SecInfo.toDen_ofDen
  lit := none
  single := rfl
  wf := fun _ _ => struct_wf SecInfo.wf

theorem DebtInfo.wf : DebtInfo.fields.wf DebtInfo.fields = true := by decide +kernel
/-- seclist.go 116-133. -/
instance : OfxType DebtInfo where
  ty := DebtInfo.ty
  toDen := DebtInfo.toDen
  ofDen := DebtInfo.ofDen
  ofDen_toDen := DebtInfo.ofDen_toDen
  toDen_ofDen := DebtInfo.toDen_ofDen
  lit := none
  single := rfl
  wf := fun _ _ => struct_wf DebtInfo.wf

theorem AssetPortion.wf : AssetPortion.fields.wf AssetPortion.fields = true := by decide +kernel
/-- seclist.go 147-151. -/
instance : OfxType AssetPortion where
  ty := AssetPortion.ty
  toDen := AssetPortion.toDen
  ofDen := AssetPortion.ofDen
  ofDen_toDen := AssetPortion.ofDen_toDen
  toDen_ofDen := AssetPortion.toDen_ofDen
  lit := none
  single := rfl
  wf := fun _ _ => struct_wf AssetPortion.wf

theorem FiAssetPortion.wf : FiAssetPortion.fields.wf FiAssetPortion.fields = true := by decide +kernel
/-- seclist.go 156-160. -/
instance : OfxType FiAssetPortion where
  ty := FiAssetPortion.ty
  toDen := FiAssetPortion.toDen
  ofDen := FiAssetPortion.ofDen
  ofDen_toDen := FiAssetPortion.ofDen_toDen
  toDen_ofDen := FiAssetPortion.toDen_ofDen
  lit := none
  single := rfl
  wf := fun _ _ => struct_wf FiAssetPortion.wf

theorem MFInfo.wf : MFInfo.fields.wf MFInfo.fields = true := by decide +kernel
/-- seclist.go 163-171. -/
instance : OfxType MFInfo where
  ty := MFInfo.ty
  toDen := MFInfo.toDen
  ofDen := MFInfo.ofDen
  ofDen_toDen := MFInfo.ofDen_toDen
  toDen_ofDen := MFInfo.toDen_ofDen
  lit := none
  single := rfl
  wf := fun _ _ => struct_wf MFInfo.wf

theorem OptInfo.wf : OptInfo.fields.wf OptInfo.fields = true := by decide +kernel
/-- seclist.go 184-194. -/
instance : OfxType OptInfo where
  ty := OptInfo.ty
  toDen := OptInfo.toDen
  ofDen := OptInfo.ofDen
  ofDen_toDen := OptInfo.ofDen_toDen
  toDen_ofDen := OptInfo.toDen_ofDen
  lit := none
  single := rfl
  wf := fun _ _ => struct_wf OptInfo.wf

theorem OtherInfo.wf : OtherInfo.fields.wf OtherInfo.fields = true := by decide +kernel
/-- seclist.go 208-214. -/
instance : OfxType OtherInfo where
  ty := OtherInfo.ty
  toDen := OtherInfo.toDen
  ofDen := OtherInfo.ofDen
  ofDen_toDen := OtherInfo.ofDen_toDen
  toDen_ofDen := OtherInfo.toDen_ofDen
  lit := none
  single := rfl
  wf := fun _ _ => struct_wf OtherInfo.wf

theorem StockInfo.wf : StockInfo.fields.wf StockInfo.fields = true := by decide +kernel
/-- seclist.go 227-235. -/
instance : OfxType StockInfo where
  ty := StockInfo.ty
  toDen := StockInfo.toDen
  ofDen := StockInfo.ofDen
  ofDen_toDen := StockInfo.ofDen_toDen
  toDen_ofDen := StockInfo.toDen_ofDen
  lit := none
  single := rfl
  wf := fun _ _ => struct_wf StockInfo.wf

theorem SecurityList.wf : SecurityList.fields.wf SecurityList.fields = true := by decide +kernel
/-- seclist.go 249-252. -/
instance : OfxType SecurityList where
  ty := SecurityList.ty
  toDen := SecurityList.toDen
  ofDen := SecurityList.ofDen
  ofDen_toDen := SecurityList.ofDen_toDen
  toDen_ofDen := SecurityList.toDen_ofDen
  lit := some "SECLIST".toList
  single := rfl
  wf := fun _ h => closed_wf h SecurityList.wf

theorem InvStatementRequest.wf : InvStatementRequest.fields.wf InvStatementRequest.fields = true := by decide +kernel
/-- invstmt.go 11-28. -/
instance : OfxType InvStatementRequest where
  ty := InvStatementRequest.ty
  toDen := InvStatementRequest.toDen
  ofDen := InvStatementRequest.ofDen
  ofDen_toDen := InvStatementRequest.ofDen_toDen
  toDen_ofDen := InvStatementRequest.toDen_ofDen
  lit := none
  single := rfl
  wf := fun _ _ => struct_wf InvStatementRequest.wf

theorem InvTran.wf : InvTran.fields.wf InvTran.fields = true := by decide +kernel
/-- invstmt.go 54-62. -/
instance : OfxType InvTran where
  ty := InvTran.ty
  toDen := InvTran.toDen
  ofDen := InvTran.ofDen
  ofDen_toDen := InvTran.ofDen_toDen
  toDen_ofDen := InvTran.toDen_ofDen
  lit := none
  single := rfl
  wf := fun _ _ => struct_wf InvTran.wf

theorem InvBuy.wf : InvBuy.fields.wf InvBuy.fields = true := by decide +kernel
/-- invstmt.go 66-91. -/
instance : OfxType InvBuy where
  ty := InvBuy.ty
  toDen := InvBuy.toDen
  ofDen := InvBuy.ofDen
  ofDen_toDen := InvBuy.ofDen_toDen
  toDen_ofDen := InvBuy.toDen_ofDen
  lit := none
  single := rfl
  wf := fun _ _ => struct_wf InvBuy.wf

theorem InvSell.wf : InvSell.fields.wf InvSell.fields = true := by decide +kernel
/-- invstmt.go 95-120. -/
instance : OfxType InvSell where
  ty := InvSell.ty
  toDen := InvSell.toDen
  ofDen := InvSell.ofDen
  ofDen_toDen := InvSell.ofDen_toDen
  toDen_ofDen := InvSell.toDen_ofDen
  lit := none
  single := rfl
  wf := fun _ _ => struct_wf InvSell.wf

theorem BuyDebt.wf : BuyDebt.fields.wf BuyDebt.fields = true := by decide +kernel
/-- invstmt.go 123-127. -/
instance : OfxType BuyDebt where
  ty := BuyDebt.ty
  toDen := BuyDebt.toDen
  ofDen := BuyDebt.ofDen
  ofDen_toDen := BuyDebt.ofDen_toDen
  toDen_ofDen := BuyDebt.toDen_ofDen
  lit := none
  single := rfl
  wf := fun _ _ => struct_wf BuyDebt.wf

theorem BuyMF.wf : BuyMF.fields.wf BuyMF.fields = true := by decide +kernel
/-- invstmt.go 139-144. -/
instance : OfxType BuyMF where
  ty := BuyMF.ty
  toDen := BuyMF.toDen
  ofDen := BuyMF.ofDen
  ofDen_toDen := BuyMF.ofDen_toDen
  toDen_ofDen := BuyMF.toDen_ofDen
  lit := none
  single := rfl
  wf := fun _ _ => struct_wf BuyMF.wf

theorem BuyOpt.wf : BuyOpt.fields.wf BuyOpt.fields = true := by decide +kernel
/-- invstmt.go 156-161. -/
instance : OfxType BuyOpt where
  ty := BuyOpt.ty
  toDen := BuyOpt.toDen
  ofDen := BuyOpt.ofDen
  ofDen_toDen := BuyOpt.ofDen_toDen
  toDen_ofDen := BuyOpt.toDen_ofDen
  lit := none
  single := rfl
  wf := fun _ _ => struct_wf BuyOpt.wf

theorem BuyOther.wf : BuyOther.fields.wf BuyOther.fields = true := by decide +kernel
/-- invstmt.go 174-177. -/
instance : OfxType BuyOther where
  ty := BuyOther.ty
  toDen := BuyOther.toDen
  ofDen := BuyOther.ofDen
  ofDen_toDen := BuyOther.ofDen_toDen
  toDen_ofDen := BuyOther.toDen_ofDen
  lit := none
  single := rfl
  wf := fun _ _ => struct_wf BuyOther.wf

theorem BuyStock.wf : BuyStock.fields.wf BuyStock.fields = true := by decide +kernel
/-- invstmt.go 189-193. -/
instance : OfxType BuyStock where
  ty := BuyStock.ty
  toDen := BuyStock.toDen
  ofDen := BuyStock.ofDen
  ofDen_toDen := BuyStock.ofDen_toDen
  toDen_ofDen := BuyStock.toDen_ofDen
  lit := none
  single := rfl
  wf := fun _ _ => struct_wf BuyStock.wf

theorem ClosureOpt.wf : ClosureOpt.fields.wf ClosureOpt.fields = true := by decide +kernel
/-- invstmt.go 205-215. -/
instance : OfxType ClosureOpt where
  ty := ClosureOpt.ty
  toDen := ClosureOpt.toDen
  ofDen := ClosureOpt.ofDen
  ofDen_toDen := ClosureOpt.ofDen_toDen
  toDen_ofDen := ClosureOpt.toDen_ofDen
  lit := none
  single := rfl
  wf := fun _ _ => struct_wf ClosureOpt.wf

theorem Income.wf : Income.fields.wf Income.fields = true := by decide +kernel
/-- invstmt.go 228-241. -/
instance : OfxType Income where
  ty := Income.ty
  toDen := Income.toDen
  ofDen := Income.ofDen
  ofDen_toDen := Income.ofDen_toDen
  toDen_ofDen := Income.toDen_ofDen
  lit := none
  single := rfl
  wf := fun _ _ => struct_wf Income.wf

theorem InvExpense.wf : InvExpense.fields.wf InvExpense.fields = true := by decide +kernel
/-- invstmt.go 254-264. -/
instance : OfxType InvExpense where
  ty := InvExpense.ty
  toDen := InvExpense.toDen
  ofDen := InvExpense.ofDen
  ofDen_toDen := InvExpense.ofDen_toDen
  toDen_ofDen := InvExpense.toDen_ofDen
  lit := none
  single := rfl
  wf := fun _ _ => struct_wf InvExpense.wf

theorem JrnlFund.wf : JrnlFund.fields.wf JrnlFund.fields = true := by decide +kernel
/-- invstmt.go 277-283. -/
instance : OfxType JrnlFund where
  ty := JrnlFund.ty
  toDen := JrnlFund.toDen
  ofDen := JrnlFund.ofDen
  ofDen_toDen := JrnlFund.ofDen_toDen
  toDen_ofDen := JrnlFund.toDen_ofDen
  lit := none
  single := rfl
  wf := fun _ _ => struct_wf JrnlFund.wf

theorem JrnlSec.wf : JrnlSec.fields.wf JrnlSec.fields = true := by decide +kernel
/-- invstmt.go 296-303. -/
instance : OfxType JrnlSec where
  ty := JrnlSec.ty
  toDen := JrnlSec.toDen
  ofDen := JrnlSec.ofDen
  ofDen_toDen := JrnlSec.ofDen_toDen
  toDen_ofDen := JrnlSec.toDen_ofDen
  lit := none
  single := rfl
  wf := fun _ _ => struct_wf JrnlSec.wf

theorem MarginInterest.wf : MarginInterest.fields.wf MarginInterest.fields = true := by decide +kernel
/-- invstmt.go 315-322. -/
instance : OfxType MarginInterest where
  ty := MarginInterest.ty
  toDen := MarginInterest.toDen
  ofDen := MarginInterest.ofDen
  ofDen_toDen := MarginInterest.ofDen_toDen
  toDen_ofDen := MarginInterest.toDen_ofDen
  lit := none
  single := rfl
  wf := fun _ _ => struct_wf MarginInterest.wf

theorem Reinvest.wf : Reinvest.fields.wf Reinvest.fields = true := by decide +kernel
/-- invstmt.go 336-353. -/
instance : OfxType Reinvest where
  ty := Reinvest.ty
  toDen := Reinvest.toDen
  ofDen := Reinvest.ofDen
  ofDen_toDen := Reinvest.ofDen_toDen
  toDen_ofDen := Reinvest.toDen_ofDen
  lit := none
  single := rfl
  wf := fun _ _ => struct_wf Reinvest.wf

theorem RetOfCap.wf : RetOfCap.fields.wf RetOfCap.fields = true := by decide +kernel
/-- invstmt.go 366-376. -/
instance : OfxType RetOfCap where
  ty := RetOfCap.ty
  toDen := RetOfCap.toDen
  ofDen := RetOfCap.ofDen
  ofDen_toDen := RetOfCap.ofDen_toDen
  toDen_ofDen := RetOfCap.toDen_ofDen
  lit := none
  single := rfl
  wf := fun _ _ => struct_wf RetOfCap.wf

theorem SellDebt.wf : SellDebt.fields.wf SellDebt.fields = true := by decide +kernel
/-- invstmt.go 389-394. -/
instance : OfxType SellDebt where
  ty := SellDebt.ty
  toDen := SellDebt.toDen
  ofDen := SellDebt.ofDen
  ofDen_toDen := SellDebt.ofDen_toDen
  toDen_ofDen := SellDebt.toDen_ofDen
  lit := none
  single := rfl
  wf := fun _ _ => struct_wf SellDebt.wf

theorem SellMF.wf : SellMF.fields.wf SellMF.fields = true := by decide +kernel
/-- invstmt.go 406-412. -/
instance : OfxType SellMF where
  ty := SellMF.ty
  toDen := SellMF.toDen
  ofDen := SellMF.ofDen
  ofDen_toDen := SellMF.ofDen_toDen
  toDen_ofDen := SellMF.toDen_ofDen
  lit := none
  single := rfl
  wf := fun _ _ => struct_wf SellMF.wf

theorem SellOpt.wf : SellOpt.fields.wf SellOpt.fields = true := by decide +kernel
/-- invstmt.go 426-434. -/
instance : OfxType SellOpt where
  ty := SellOpt.ty
  toDen := SellOpt.toDen
  ofDen := SellOpt.ofDen
  ofDen_toDen := SellOpt.ofDen_toDen
  toDen_ofDen := SellOpt.toDen_ofDen
  lit := none
  single := rfl
  wf := fun _ _ => struct_wf SellOpt.wf

theorem SellOther.wf : SellOther.fields.wf SellOther.fields = true := by decide +kernel
/-- invstmt.go 447-450. -/
instance : OfxType SellOther where
  ty := SellOther.ty
  toDen := SellOther.toDen
  ofDen := SellOther.ofDen
  ofDen_toDen := SellOther.ofDen_toDen
  toDen_ofDen := SellOther.toDen_ofDen
  lit := none
  single := rfl
  wf := fun _ _ => struct_wf SellOther.wf

theorem SellStock.wf : SellStock.fields.wf SellStock.fields = true := by decide +kernel
/-- invstmt.go 462-466. -/
instance : OfxType SellStock where
  ty := SellStock.ty
  toDen := SellStock.toDen
  ofDen := SellStock.ofDen
  ofDen_toDen := SellStock.ofDen_toDen
  toDen_ofDen := SellStock.toDen_ofDen
  lit := none
  single := rfl
  wf := fun _ _ => struct_wf SellStock.wf

theorem Split.wf : Split.fields.wf Split.fields = true := by decide +kernel
/-- invstmt.go 478-492. -/
instance : OfxType Split where
  ty := Split.ty
  toDen := Split.toDen
  ofDen := Split.ofDen
  ofDen_toDen := Split.ofDen_toDen
  toDen_ofDen := Split.toDen_ofDen
  lit := none
  single := rfl
  wf := fun _ _ => struct_wf Split.wf

theorem Transfer.wf : Transfer.fields.wf Transfer.fields = true := by decide +kernel
/-- invstmt.go 504-517. -/
instance : OfxType Transfer where
  ty := Transfer.ty
  toDen := Transfer.toDen
  ofDen := Transfer.ofDen
  ofDen_toDen := Transfer.ofDen_toDen
  toDen_ofDen := Transfer.toDen_ofDen
  lit := none
  single := rfl
  wf := fun _ _ => struct_wf Transfer.wf

theorem InvBankTransaction.wf : InvBankTransaction.fields.wf InvBankTransaction.fields = true := by decide +kernel
/-- invstmt.go 538-542. -/
instance : OfxType InvBankTransaction where
  ty := InvBankTransaction.ty
  toDen := InvBankTransaction.toDen
  ofDen := InvBankTransaction.ofDen
  ofDen_toDen := InvBankTransaction.ofDen_toDen
  toDen_ofDen := InvBankTransaction.toDen_ofDen
  lit := none
  single := rfl
  wf := fun _ _ => struct_wf InvBankTransaction.wf

theorem InvTranList.wf : InvTranList.fields.wf InvTranList.fields = true := by decide +kernel
/-- invstmt.go 548-554. -/
instance : OfxType InvTranList where
  ty := InvTranList.ty
  toDen := InvTranList.toDen
  ofDen := InvTranList.ofDen
  ofDen_toDen := InvTranList.ofDen_toDen
  toDen_ofDen := InvTranList.toDen_ofDen
  lit := some "INVTRANLIST".toList
  single := rfl
  wf := fun _ h => closed_wf h InvTranList.wf

theorem InvPosition.wf : InvPosition.fields.wf InvPosition.fields = true := by decide +kernel
/-- invstmt.go 830-843. -/
instance : OfxType InvPosition where
  ty := InvPosition.ty
  toDen := InvPosition.toDen
  ofDen := InvPosition.ofDen
  ofDen_toDen := InvPosition.ofDen_toDen
  toDen_ofDen := InvPosition.toDen_ofDen
  lit := none
  single := rfl
  wf := fun _ _ => struct_wf InvPosition.wf

theorem DebtPosition.wf : DebtPosition.fields.wf DebtPosition.fields = true := by decide +kernel
/-- invstmt.go 852-855. -/
instance : OfxType DebtPosition where
  ty := DebtPosition.ty
  toDen := DebtPosition.toDen
  ofDen := DebtPosition.ofDen
  ofDen_toDen := DebtPosition.ofDen_toDen
  toDen_ofDen := DebtPosition.toDen_ofDen
  lit := none
  single := rfl
  wf := fun _ _ => struct_wf DebtPosition.wf

theorem MFPosition.wf : MFPosition.fields.wf MFPosition.fields = true := by decide +kernel
/-- invstmt.go 868-875. -/
instance : OfxType MFPosition where
  ty := MFPosition.ty
  toDen := MFPosition.toDen
  ofDen := MFPosition.ofDen
  ofDen_toDen := MFPosition.ofDen_toDen
  toDen_ofDen := MFPosition.toDen_ofDen
  lit := none
  single := rfl
  wf := fun _ _ => struct_wf MFPosition.wf

theorem OptPosition.wf : OptPosition.fields.wf OptPosition.fields = true := by decide +kernel
/-- invstmt.go 888-892. -/
instance : OfxType OptPosition where
  ty := OptPosition.ty
  toDen := OptPosition.toDen
  ofDen := OptPosition.ofDen
  ofDen_toDen := OptPosition.ofDen_toDen
  toDen_ofDen := OptPosition.toDen_ofDen
  lit := none
  single := rfl
  wf := fun _ _ => struct_wf OptPosition.wf

theorem OtherPosition.wf : OtherPosition.fields.wf OtherPosition.fields = true := by decide +kernel
/-- invstmt.go 906-909. -/
instance : OfxType OtherPosition where
  ty := OtherPosition.ty
  toDen := OtherPosition.toDen
  ofDen := OtherPosition.ofDen
  ofDen_toDen := OtherPosition.ofDen_toDen
  toDen_ofDen := OtherPosition.toDen_ofDen
  lit := none
  single := rfl
  wf := fun _ _ => struct_wf OtherPosition.wf

theorem StockPosition.wf : StockPosition.fields.wf StockPosition.fields = true := by decide +kernel
/-- invstmt.go 922-928. -/
instance : OfxType StockPosition where
  ty := StockPosition.ty
  toDen := StockPosition.toDen
  ofDen := StockPosition.ofDen
  ofDen_toDen := StockPosition.ofDen_toDen
  toDen_ofDen := StockPosition.toDen_ofDen
  lit := none
  single := rfl
  wf := fun _ _ => struct_wf StockPosition.wf

theorem InvBalance.wf : InvBalance.fields.wf InvBalance.fields = true := by decide +kernel
/-- invstmt.go 1036-1043. -/
instance : OfxType InvBalance where
  ty := InvBalance.ty
  toDen := InvBalance.toDen
  ofDen := InvBalance.ofDen
  ofDen_toDen := InvBalance.ofDen_toDen
  toDen_ofDen := InvBalance.toDen_ofDen
  lit := none
  single := rfl
  wf := fun _ _ => struct_wf InvBalance.wf

theorem OO.wf : OO.fields.wf OO.fields = true := by decide +kernel
/-- invstmt.go 1047-1063. -/
instance : OfxType OO where
  ty := OO.ty
  toDen := OO.toDen
  ofDen := OO.ofDen
  ofDen_toDen := OO.ofDen_toDen
  toDen_ofDen := OO.toDen_ofDen
  lit := none
  single := rfl
  wf := fun _ _ => struct_wf OO.wf

theorem OOBuyDebt.wf : OOBuyDebt.fields.wf OOBuyDebt.fields = true := by decide +kernel
/-- invstmt.go 1071-1076. -/
instance : OfxType OOBuyDebt where
  ty := OOBuyDebt.ty
  toDen := OOBuyDebt.toDen
  ofDen := OOBuyDebt.ofDen
  ofDen_toDen := OOBuyDebt.ofDen_toDen
  toDen_ofDen := OOBuyDebt.toDen_ofDen
  lit := none
  single := rfl
  wf := fun _ _ => struct_wf OOBuyDebt.wf

theorem OOBuyMF.wf : OOBuyMF.fields.wf OOBuyMF.fields = true := by decide +kernel
/-- invstmt.go 1084-1089. -/
instance : OfxType OOBuyMF where
  ty := OOBuyMF.ty
  toDen := OOBuyMF.toDen
  ofDen := OOBuyMF.ofDen
  ofDen_toDen := OOBuyMF.ofDen_toDen
  toDen_ofDen := OOBuyMF.toDen_ofDen
  lit := none
  single := rfl
  wf := fun _ _ => struct_wf OOBuyMF.wf

theorem OOBuyOpt.wf : OOBuyOpt.fields.wf OOBuyOpt.fields = true := by decide +kernel
/-- invstmt.go 1097-1101. -/
instance : OfxType OOBuyOpt where
  ty := OOBuyOpt.ty
  toDen := OOBuyOpt.toDen
  ofDen := OOBuyOpt.ofDen
  ofDen_toDen := OOBuyOpt.ofDen_toDen
  toDen_ofDen := OOBuyOpt.toDen_ofDen
  lit := none
  single := rfl
  wf := fun _ _ => struct_wf OOBuyOpt.wf

theorem OOBuyOther.wf : OOBuyOther.fields.wf OOBuyOther.fields = true := by decide +kernel
/-- invstmt.go 1110-1114. -/
instance : OfxType OOBuyOther where
  ty := OOBuyOther.ty
  toDen := OOBuyOther.toDen
  ofDen := OOBuyOther.ofDen
  ofDen_toDen := OOBuyOther.ofDen_toDen
  toDen_ofDen := OOBuyOther.toDen_ofDen
  lit := none
  single := rfl
  wf := fun _ _ => struct_wf OOBuyOther.wf

theorem OOBuyStock.wf : OOBuyStock.fields.wf OOBuyStock.fields = true := by decide +kernel
/-- invstmt.go 1122-1126. -/
instance : OfxType OOBuyStock where
  ty := OOBuyStock.ty
  toDen := OOBuyStock.toDen
  ofDen := OOBuyStock.ofDen
  ofDen_toDen := OOBuyStock.ofDen_toDen
  toDen_ofDen := OOBuyStock.toDen_ofDen
  lit := none
  single := rfl
  wf := fun _ _ => struct_wf OOBuyStock.wf

theorem OOSellDebt.wf : OOSellDebt.fields.wf OOSellDebt.fields = true := by decide +kernel
/-- invstmt.go 1134-1137. -/
instance : OfxType OOSellDebt where
  ty := OOSellDebt.ty
  toDen := OOSellDebt.toDen
  ofDen := OOSellDebt.ofDen
  ofDen_toDen := OOSellDebt.ofDen_toDen
  toDen_ofDen := OOSellDebt.toDen_ofDen
  lit := none
  single := rfl
  wf := fun _ _ => struct_wf OOSellDebt.wf

theorem OOSellMF.wf : OOSellMF.fields.wf OOSellMF.fields = true := by decide +kernel
/-- invstmt.go 1145-1151. -/
instance : OfxType OOSellMF where
  ty := OOSellMF.ty
  toDen := OOSellMF.toDen
  ofDen := OOSellMF.ofDen
  ofDen_toDen := OOSellMF.ofDen_toDen
  toDen_ofDen := OOSellMF.toDen_ofDen
  lit := none
  single := rfl
  wf := fun _ _ => struct_wf OOSellMF.wf

theorem OOSellOpt.wf : OOSellOpt.fields.wf OOSellOpt.fields = true := by decide +kernel
/-- invstmt.go 1159-1163. -/
instance : OfxType OOSellOpt where
  ty := OOSellOpt.ty
  toDen := OOSellOpt.toDen
  ofDen := OOSellOpt.ofDen
  ofDen_toDen := OOSellOpt.ofDen_toDen
  toDen_ofDen := OOSellOpt.toDen_ofDen
  lit := none
  single := rfl
  wf := fun _ _ => struct_wf OOSellOpt.wf

theorem OOSellOther.wf : OOSellOther.fields.wf OOSellOther.fields = true := by decide +kernel
/-- invstmt.go 1172-1176. -/
instance : OfxType OOSellOther where
  ty := OOSellOther.ty
  toDen := OOSellOther.toDen
  ofDen := OOSellOther.ofDen
  ofDen_toDen := OOSellOther.ofDen_toDen
  toDen_ofDen := OOSellOther.toDen_ofDen
  lit := none
  single := rfl
  wf := fun _ _ => struct_wf OOSellOther.wf

theorem OOSellStock.wf : OOSellStock.fields.wf OOSellStock.fields = true := by decide +kernel
/-- invstmt.go 1184-1188. -/
instance : OfxType OOSellStock where
  ty := OOSellStock.ty
  toDen := OOSellStock.toDen
  ofDen := OOSellStock.ofDen
  ofDen_toDen := OOSellStock.ofDen_toDen
  toDen_ofDen := OOSellStock.toDen_ofDen
  lit := none
  single := rfl
  wf := fun _ _ => struct_wf OOSellStock.wf

theorem OOSwitchMF.wf : OOSwitchMF.fields.wf OOSwitchMF.fields = true := by decide +kernel
/-- invstmt.go 1197-1203. -/
instance : OfxType OOSwitchMF where
  ty := OOSwitchMF.ty
  toDen := OOSwitchMF.toDen
  ofDen := OOSwitchMF.ofDen
  ofDen_toDen := OOSwitchMF.ofDen_toDen
  toDen_ofDen := OOSwitchMF.toDen_ofDen
  lit := none
  single := rfl
  wf := fun _ _ => struct_wf OOSwitchMF.wf

theorem ContribSecurity.wf : ContribSecurity.fields.wf ContribSecurity.fields = true := by decide +kernel
/-- invstmt.go 1364-1381. -/
instance : OfxType ContribSecurity where
  ty := ContribSecurity.ty
  toDen := ContribSecurity.toDen
  ofDen := ContribSecurity.ofDen
  ofDen_toDen := ContribSecurity.ofDen_toDen
  toDen_ofDen := ContribSecurity.toDen_ofDen
  lit := none
  single := rfl
  wf := fun _ _ => struct_wf ContribSecurity.wf

theorem VestInfo.wf : VestInfo.fields.wf VestInfo.fields = true := by decide +kernel
/-- invstmt.go 1385-1389. -/
instance : OfxType VestInfo where
  ty := VestInfo.ty
  toDen := VestInfo.toDen
  ofDen := VestInfo.ofDen
  ofDen_toDen := VestInfo.ofDen_toDen
  toDen_ofDen := VestInfo.toDen_ofDen
  lit := none
  single := rfl
  wf := fun _ _ => struct_wf VestInfo.wf

theorem LoanInfo.wf : LoanInfo.fields.wf LoanInfo.fields = true := by decide +kernel
/-- invstmt.go 1392-1409. -/
instance : OfxType LoanInfo where
  ty := LoanInfo.ty
  toDen := LoanInfo.toDen
  ofDen := LoanInfo.ofDen
  ofDen_toDen := LoanInfo.ofDen_toDen
  toDen_ofDen := LoanInfo.toDen_ofDen
  lit := none
  single := rfl
  wf := fun _ _ => struct_wf LoanInfo.wf

theorem Inv401KSummaryAggregate.wf : Inv401KSummaryAggregate.fields.wf Inv401KSummaryAggregate.fields = true := by decide +kernel
/-- invstmt.go 1414-1424. -/
instance : OfxType Inv401KSummaryAggregate where
  ty := Inv401KSummaryAggregate.ty
  toDen := Inv401KSummaryAggregate.toDen
  ofDen := Inv401KSummaryAggregate.ofDen
  ofDen_toDen := Inv401KSummaryAggregate.ofDen_toDen
  toDen_ofDen := Inv401KSummaryAggregate.toDen_ofDen
  lit := none
  single := rfl
  wf := fun _ _ => struct_wf Inv401KSummaryAggregate.wf

theorem Inv401KSummaryPeriod.wf : Inv401KSummaryPeriod.fields.wf Inv401KSummaryPeriod.fields = true := by decide +kernel
/-- invstmt.go 1428-1435. -/
instance : OfxType Inv401KSummaryPeriod where
  ty := Inv401KSummaryPeriod.ty
  toDen := Inv401KSummaryPeriod.toDen
  ofDen := Inv401KSummaryPeriod.ofDen
  ofDen_toDen := Inv401KSummaryPeriod.ofDen_toDen
  toDen_ofDen := Inv401KSummaryPeriod.toDen_ofDen
  lit := none
  single := rfl
  wf := fun _ _ => struct_wf Inv401KSummaryPeriod.wf

theorem Inv401K.wf : Inv401K.fields.wf Inv401K.fields = true := by decide +kernel
/-- invstmt.go 1439-1463. -/
instance : OfxType Inv401K where
  ty := Inv401K.ty
  toDen := Inv401K.toDen
  ofDen := Inv401K.ofDen
  ofDen_toDen := Inv401K.ofDen_toDen
  toDen_ofDen := Inv401K.toDen_ofDen
  lit := none
  single := rfl
  wf := fun _ _ => struct_wf Inv401K.wf

theorem Inv401KBal.wf : Inv401KBal.fields.wf Inv401KBal.fields = true := by decide +kernel
/-- invstmt.go 1467-1479. -/
instance : OfxType Inv401KBal where
  ty := Inv401KBal.ty
  toDen := Inv401KBal.toDen
  ofDen := Inv401KBal.ofDen
  ofDen_toDen := Inv401KBal.ofDen_toDen
  toDen_ofDen := Inv401KBal.toDen_ofDen
  lit := none
  single := rfl
  wf := fun _ _ => struct_wf Inv401KBal.wf

theorem PositionList.wf : PositionList.fields.wf PositionList.fields = true := by decide +kernel
/-- invstmt.go 942. -/
instance : OfxType PositionList where
  ty := PositionList.ty
  toDen := PositionList.toDen
  ofDen := PositionList.ofDen
  ofDen_toDen := PositionList.ofDen_toDen
  toDen_ofDen := PositionList.toDen_ofDen
  lit := some "INVPOSLIST".toList
  single := rfl
  wf := fun _ h => closed_wf h PositionList.wf

theorem OOList.wf : OOList.fields.wf OOList.fields = true := by decide +kernel
/-- invstmt.go 1211. -/
instance : OfxType OOList where
  ty := OOList.ty
  toDen := OOList.toDen
  ofDen := OOList.ofDen
  ofDen_toDen := OOList.ofDen_toDen
  toDen_ofDen := OOList.toDen_ofDen
  lit := some "INVOOLIST".toList
  single := rfl
  wf := fun _ h => closed_wf h OOList.wf

theorem InvStatementResponse.wf : InvStatementResponse.fields.wf InvStatementResponse.fields = true := by decide +kernel
/-- invstmt.go 1485-1501. -/
instance : OfxType InvStatementResponse where
  ty := InvStatementResponse.ty
  toDen := InvStatementResponse.toDen
  ofDen := InvStatementResponse.ofDen
  ofDen_toDen := InvStatementResponse.ofDen_toDen
  toDen_ofDen := InvStatementResponse.toDen_ofDen
  lit := none
  single := rfl
  wf := fun _ _ => struct_wf InvStatementResponse.wf

end Ofx
