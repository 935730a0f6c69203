import Verif.Codec.Type
import Verif.Gen.Types
import Verif.Spec.Document
/-
The kinds of elements of the heterogeneous lists: which Go type holds which element, and
what it then contains (what reading that element alone gives).
-/
namespace Ofx.Spec
open Ofx

/-- White space aside, only elements. -/
def OnlyElements (cs : List Node) : Prop :=
  ∀ c ∈ cs, (∃ n ch, c = .elem n ch) ∨ ∃ s, c = .text s ∧ IsPadding s

/-- A child of a list of Security values and the value read from it. -/
def SecurityReads (env : Env) (e : Str × List Node) : Security → Prop
  | .debtInfo v => e.1 = "DEBTINFO".toList ∧ decodeNew env e.1 e.2 = .ok v
  | .mfInfo v => e.1 = "MFINFO".toList ∧ decodeNew env e.1 e.2 = .ok v
  | .optInfo v => e.1 = "OPTINFO".toList ∧ decodeNew env e.1 e.2 = .ok v
  | .otherInfo v => e.1 = "OTHERINFO".toList ∧ decodeNew env e.1 e.2 = .ok v
  | .stockInfo v => e.1 = "STOCKINFO".toList ∧ decodeNew env e.1 e.2 = .ok v

/-- A child of a list of InvTransaction values and the value read from it. -/
def InvTransactionReads (env : Env) (e : Str × List Node) : InvTransaction → Prop
  | .buyDebt v => e.1 = "BUYDEBT".toList ∧ decodeNew env e.1 e.2 = .ok v
  | .buyMF v => e.1 = "BUYMF".toList ∧ decodeNew env e.1 e.2 = .ok v
  | .buyOpt v => e.1 = "BUYOPT".toList ∧ decodeNew env e.1 e.2 = .ok v
  | .buyOther v => e.1 = "BUYOTHER".toList ∧ decodeNew env e.1 e.2 = .ok v
  | .buyStock v => e.1 = "BUYSTOCK".toList ∧ decodeNew env e.1 e.2 = .ok v
  | .closureOpt v => e.1 = "CLOSUREOPT".toList ∧ decodeNew env e.1 e.2 = .ok v
  | .income v => e.1 = "INCOME".toList ∧ decodeNew env e.1 e.2 = .ok v
  | .invExpense v => e.1 = "INVEXPENSE".toList ∧ decodeNew env e.1 e.2 = .ok v
  | .jrnlFund v => e.1 = "JRNLFUND".toList ∧ decodeNew env e.1 e.2 = .ok v
  | .jrnlSec v => e.1 = "JRNLSEC".toList ∧ decodeNew env e.1 e.2 = .ok v
  | .marginInterest v => e.1 = "MARGININTEREST".toList ∧ decodeNew env e.1 e.2 = .ok v
  | .reinvest v => e.1 = "REINVEST".toList ∧ decodeNew env e.1 e.2 = .ok v
  | .retOfCap v => e.1 = "RETOFCAP".toList ∧ decodeNew env e.1 e.2 = .ok v
  | .sellDebt v => e.1 = "SELLDEBT".toList ∧ decodeNew env e.1 e.2 = .ok v
  | .sellMF v => e.1 = "SELLMF".toList ∧ decodeNew env e.1 e.2 = .ok v
  | .sellOpt v => e.1 = "SELLOPT".toList ∧ decodeNew env e.1 e.2 = .ok v
  | .sellOther v => e.1 = "SELLOTHER".toList ∧ decodeNew env e.1 e.2 = .ok v
  | .sellStock v => e.1 = "SELLSTOCK".toList ∧ decodeNew env e.1 e.2 = .ok v
  | .split v => e.1 = "SPLIT".toList ∧ decodeNew env e.1 e.2 = .ok v
  | .transfer v => e.1 = "TRANSFER".toList ∧ decodeNew env e.1 e.2 = .ok v

/-- A child of a list of Position values and the value read from it. -/
def PositionReads (env : Env) (e : Str × List Node) : Position → Prop
  | .debtPosition v => e.1 = "POSDEBT".toList ∧ decodeNew env e.1 e.2 = .ok v
  | .mfPosition v => e.1 = "POSMF".toList ∧ decodeNew env e.1 e.2 = .ok v
  | .optPosition v => e.1 = "POSOPT".toList ∧ decodeNew env e.1 e.2 = .ok v
  | .otherPosition v => e.1 = "POSOTHER".toList ∧ decodeNew env e.1 e.2 = .ok v
  | .stockPosition v => e.1 = "POSSTOCK".toList ∧ decodeNew env e.1 e.2 = .ok v

/-- A child of a list of OpenOrder values and the value read from it. -/
def OpenOrderReads (env : Env) (e : Str × List Node) : OpenOrder → Prop
  | .ooBuyDebt v => e.1 = "OOBUYDEBT".toList ∧ decodeNew env e.1 e.2 = .ok v
  | .ooBuyMF v => e.1 = "OOBUYMF".toList ∧ decodeNew env e.1 e.2 = .ok v
  | .ooBuyOpt v => e.1 = "OOBUYOPT".toList ∧ decodeNew env e.1 e.2 = .ok v
  | .ooBuyOther v => e.1 = "OOBUYOTHER".toList ∧ decodeNew env e.1 e.2 = .ok v
  | .ooBuyStock v => e.1 = "OOBUYSTOCK".toList ∧ decodeNew env e.1 e.2 = .ok v
  | .ooSellDebt v => e.1 = "OOSELLDEBT".toList ∧ decodeNew env e.1 e.2 = .ok v
  | .ooSellMF v => e.1 = "OOSELLMF".toList ∧ decodeNew env e.1 e.2 = .ok v
  | .ooSellOpt v => e.1 = "OOSELLOPT".toList ∧ decodeNew env e.1 e.2 = .ok v
  | .ooSellOther v => e.1 = "OOSELLOTHER".toList ∧ decodeNew env e.1 e.2 = .ok v
  | .ooSellStock v => e.1 = "OOSELLSTOCK".toList ∧ decodeNew env e.1 e.2 = .ok v
  | .ooSwitchMF v => e.1 = "SWITCHMF".toList ∧ decodeNew env e.1 e.2 = .ok v

/-- One <xxxMSGSET> element and the message set read from it: it holds exactly one element,
whose name becomes the name of the set. -/
def MessageSetReads (env : Env) (e : Str × List Node) (m : MessageSet) : Prop :=
  OnlyElements e.2 ∧ ∃ inner, elems e.2 = [(m.Name, inner)] ∧ m.XMLName = m.Name ∧
    (Ty.struct .none MessageSet.tagged).dec env (Ty.struct .none MessageSet.tagged).zero m.Name inner =
      .ok ((), (MessageSet.toDen m).2.2)

/-- A message set whose values a document can carry. -/
def GoodSet (m : MessageSet) : Prop :=
  InInt64 m.Ver ∧ IsTrim m.URL ∧ (m.OfxSec = 0 ∨ enumOfxSec.valid m.OfxSec = true) ∧ IsTrim m.SignonRealm ∧
  (∀ l ∈ m.Language, IsTrim l) ∧ (m.SyncMode = 0 ∨ enumSyncMode.valid m.SyncMode = true) ∧ IsTrim m.SpName

end Ofx.Spec
