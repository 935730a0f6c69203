import Verif.Gen.Structs
/-
Generated by tools/gen_access.py from /repo: the methods of the interfaces for
transactions, positions, open orders and securities.
-/
namespace Ofx

/-- The methods `TransactionType`: invstmt.go 130-132, 147-149, 164-166, 180-182, 196-198, 218-220, 244-246, 267-269, 286-288, 306-308, 325-327, 356-358, 379-381, 397-399, 415-417, 437-439, 453-455, 469-471, 495-497, 520-522. -/
def InvTransaction.TransactionType : InvTransaction → Str
  | .buyDebt _ => "BUYDEBT".toList
  | .buyMF _ => "BUYMF".toList
  | .buyOpt _ => "BUYOPT".toList
  | .buyOther _ => "BUYOTHER".toList
  | .buyStock _ => "BUYSTOCK".toList
  | .closureOpt _ => "CLOSUREOPT".toList
  | .income _ => "INCOME".toList
  | .invExpense _ => "INVEXPENSE".toList
  | .jrnlFund _ => "JRNLFUND".toList
  | .jrnlSec _ => "JRNLSEC".toList
  | .marginInterest _ => "MARGININTEREST".toList
  | .reinvest _ => "REINVEST".toList
  | .retOfCap _ => "RETOFCAP".toList
  | .sellDebt _ => "SELLDEBT".toList
  | .sellMF _ => "SELLMF".toList
  | .sellOpt _ => "SELLOPT".toList
  | .sellOther _ => "SELLOTHER".toList
  | .sellStock _ => "SELLSTOCK".toList
  | .split _ => "SPLIT".toList
  | .transfer _ => "TRANSFER".toList

/-- The methods `InvTransaction`: invstmt.go 134-136, 151-153, 168-170, 184-186, 200-202, 222-224, 248-250, 271-273, 290-292, 310-312, 329-331, 360-362, 383-385, 401-403, 419-421, 441-443, 457-459, 473-475, 499-501, 524-526. -/
def InvTransaction.InvTransaction : InvTransaction → Ofx.InvTran
  | .buyDebt v => v.InvBuy.InvTran
  | .buyMF v => v.InvBuy.InvTran
  | .buyOpt v => v.InvBuy.InvTran
  | .buyOther v => v.InvBuy.InvTran
  | .buyStock v => v.InvBuy.InvTran
  | .closureOpt v => v.InvTran
  | .income v => v.InvTran
  | .invExpense v => v.InvTran
  | .jrnlFund v => v.InvTran
  | .jrnlSec v => v.InvTran
  | .marginInterest v => v.InvTran
  | .reinvest v => v.InvTran
  | .retOfCap v => v.InvTran
  | .sellDebt v => v.InvSell.InvTran
  | .sellMF v => v.InvSell.InvTran
  | .sellOpt v => v.InvSell.InvTran
  | .sellOther v => v.InvSell.InvTran
  | .sellStock v => v.InvSell.InvTran
  | .split v => v.InvTran
  | .transfer v => v.InvTran

/-- The methods `PositionType`: invstmt.go 858-860, 878-880, 895-897, 912-914, 931-933. -/
def Position.PositionType : Position → Str
  | .debtPosition _ => "POSDEBT".toList
  | .mfPosition _ => "POSMF".toList
  | .optPosition _ => "POSOPT".toList
  | .otherPosition _ => "POSOTHER".toList
  | .stockPosition _ => "POSSTOCK".toList

/-- The methods `InvPosition`: invstmt.go 863-865, 883-885, 900-902, 917-919, 936-938. -/
def Position.InvPosition : Position → Ofx.InvPosition
  | .debtPosition v => v.InvPos
  | .mfPosition v => v.InvPos
  | .optPosition v => v.InvPos
  | .otherPosition v => v.InvPos
  | .stockPosition v => v.InvPos

/-- The methods `OrderType`: invstmt.go 1079-1081, 1092-1094, 1104-1106, 1117-1119, 1129-1131, 1140-1142, 1154-1156, 1166-1168, 1179-1181, 1191-1193, 1206-1208. -/
def OpenOrder.OrderType : OpenOrder → Str
  | .ooBuyDebt _ => "OOBUYDEBT".toList
  | .ooBuyMF _ => "OOBUYMF".toList
  | .ooBuyOpt _ => "OOBUYOPT".toList
  | .ooBuyOther _ => "OOBUYOTHER".toList
  | .ooBuyStock _ => "OOBUYSTOCK".toList
  | .ooSellDebt _ => "OOSELLDEBT".toList
  | .ooSellMF _ => "OOSELLMF".toList
  | .ooSellOpt _ => "OOSELLOPT".toList
  | .ooSellOther _ => "OOSELLOTHER".toList
  | .ooSellStock _ => "OOSELLSTOCK".toList
  | .ooSwitchMF _ => "SWITCHMF".toList

/-- The methods `SecurityType`: seclist.go 136-138, 174-176, 197-199, 217-219, 238-240. -/
def Security.SecurityType : Security → Str
  | .debtInfo _ => "DEBTINFO".toList
  | .mfInfo _ => "MFINFO".toList
  | .optInfo _ => "OPTINFO".toList
  | .otherInfo _ => "OTHERINFO".toList
  | .stockInfo _ => "STOCKINFO".toList

/-- The methods `SecurityInfo`: seclist.go 141-143, 179-181, 202-204, 222-224, 243-245. -/
def Security.SecurityInfo : Security → Ofx.SecInfo
  | .debtInfo v => v.SecInfo
  | .mfInfo v => v.SecInfo
  | .optInfo v => v.SecInfo
  | .otherInfo v => v.SecInfo
  | .stockInfo v => v.SecInfo

end Ofx
