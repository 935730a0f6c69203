import Verif.Spec.Leaves
/-
GENERATED by tools/gen_elements.py from the struct declarations of /repo -- do not edit.

What elements say about each structure, written out field by field: `XIs env es v` states that
the elements `es`, taken together, say that the `X` is `v`.
-/
namespace Ofx.Spec
open Ofx

/-- The elements called `name`, inside elements called as the path says, in the content of `es`. -/
def found (es : List (Str × List Node)) (path : List String) (name : String) : List (Str × List Node) :=
  elementsAt (path.map String.toList) name.toList (es.flatMap (fun e => e.2))

/-- The last of the elements holds the value; all can be read; without any it is the zero value. -/
def Holds (env : Env) (l : Leaf) (es : List (Str × List Node)) (v : l.Den) : Prop :=
  (∀ e ∈ es, ∃ x, LeafSays env l (leafText e.2) x) ∧
  match es.getLast? with
  | none => v = l.zero
  | some e => LeafSays env l (leafText e.2) v

/-- No elements, no value. -/
def Maybe {α : Type} (is : List (Str × List Node) → α → Prop) (es : List (Str × List Node)) (v : Option α) : Prop :=
  (es = [] ∧ v = none) ∨ (es ≠ [] ∧ ∃ x, v = some x ∧ is es x)

/-- One value for each element. -/
def Each {α : Type} (is : List (Str × List Node) → α → Prop) (es : List (Str × List Node)) (vs : List α) : Prop :=
  List.Forall₂ (fun e v => is [e] v) es vs

/-- All elements have the name. -/
def Called (name : String) (es : List (Str × List Node)) : Prop := ∀ e ∈ es, e.1 = name.toList

/-- One value for each element in the content of `es` that has one of the names. -/
def EachCalled {α : Type} (names : List String) (is : Str × List Node → α → Prop) (es : List (Str × List Node)) (vs : List α) : Prop :=
  List.Forall₂ is ((elems (es.flatMap (fun e => e.2))).filter (fun e => e.1 ∈ names.map String.toList)) vs

/-- Besides white space the content of `es` has elements with these names only. -/
def OnlyCalled (names : List String) (es : List (Str × List Node)) : Prop :=
  ∀ c ∈ es.flatMap (fun e => e.2), (∃ n ch, c = .elem n ch ∧ n ∈ names.map String.toList) ∨ ∃ s, c = .text s ∧ IsPadding s

/-- common.go 264-269 -/
def StatusIs (env : Env) (es : List (Str × List Node)) (v : Ofx.Status) : Prop :=
  Called "STATUS" es ∧
  Holds env .int (found es [] "CODE") v.Code ∧
  Holds env .str (found es [] "SEVERITY") v.Severity ∧
  Holds env .str (found es [] "MESSAGE") v.Message

/-- common.go 308-315 -/
def BankAcctIs (env : Env) (es : List (Str × List Node)) (v : Ofx.BankAcct) : Prop :=
  v.XMLName = (es.getLast?.map (fun e => e.1)).getD [] ∧
  Holds env .str (found es [] "BANKID") v.BankID ∧
  Holds env .str (found es [] "BRANCHID") v.BranchID ∧
  Holds env .str (found es [] "ACCTID") v.AcctID ∧
  Holds env (.enum enumAcctType) (found es [] "ACCTTYPE") v.AcctType ∧
  Holds env .str (found es [] "ACCTKEY") v.AcctKey

/-- common.go 332-336 -/
def CCAcctIs (env : Env) (es : List (Str × List Node)) (v : Ofx.CCAcct) : Prop :=
  v.XMLName = (es.getLast?.map (fun e => e.1)).getD [] ∧
  Holds env .str (found es [] "ACCTID") v.AcctID ∧
  Holds env .str (found es [] "ACCTKEY") v.AcctKey

/-- common.go 347-351 -/
def InvAcctIs (env : Env) (es : List (Str × List Node)) (v : Ofx.InvAcct) : Prop :=
  v.XMLName = (es.getLast?.map (fun e => e.1)).getD [] ∧
  Holds env .str (found es [] "BROKERID") v.BrokerID ∧
  Holds env .str (found es [] "ACCTID") v.AcctID

/-- common.go 358-362 -/
def CurrencyIs (env : Env) (es : List (Str × List Node)) (v : Ofx.Currency) : Prop :=
  v.XMLName = (es.getLast?.map (fun e => e.1)).getD [] ∧
  Holds env .amount (found es [] "CURRATE") v.CurRate ∧
  Holds env .curr (found es [] "CURSYM") v.CurSym

/-- bank.go 12-24 -/
def StatementRequestIs (env : Env) (es : List (Str × List Node)) (v : Ofx.StatementRequest) : Prop :=
  Called "STMTTRNRQ" es ∧
  Holds env .uid (found es [] "TRNUID") v.TrnUID ∧
  Holds env .str (found es [] "CLTCOOKIE") v.CltCookie ∧
  Holds env .str (found es [] "TAN") v.TAN ∧
  BankAcctIs env (found es ["STMTRQ"] "BANKACCTFROM") v.BankAcctFrom ∧
  Maybe (Holds env .date) (found es ["STMTRQ", "INCTRAN"] "DTSTART") v.DtStart ∧
  Maybe (Holds env .date) (found es ["STMTRQ", "INCTRAN"] "DTEND") v.DtEnd ∧
  Holds env .bool (found es ["STMTRQ", "INCTRAN"] "INCLUDE") v.Include ∧
  Holds env .bool (found es ["STMTRQ"] "INCLUDEPENDING") v.IncludePending ∧
  Holds env .bool (found es ["STMTRQ"] "INCTRANIMG") v.IncTranImg

/-- bank.go 53-64 -/
def PayeeIs (env : Env) (es : List (Str × List Node)) (v : Ofx.Payee) : Prop :=
  Called "PAYEE" es ∧
  Holds env .str (found es [] "NAME") v.Name ∧
  Holds env .str (found es [] "ADDR1") v.Addr1 ∧
  Holds env .str (found es [] "ADDR2") v.Addr2 ∧
  Holds env .str (found es [] "ADDR3") v.Addr3 ∧
  Holds env .str (found es [] "CITY") v.City ∧
  Holds env .str (found es [] "STATE") v.State ∧
  Holds env .str (found es [] "POSTALCODE") v.PostalCode ∧
  Holds env .str (found es [] "COUNTRY") v.Country ∧
  Holds env .str (found es [] "PHONE") v.Phone

/-- bank.go 88-98 -/
def ImageDataIs (env : Env) (es : List (Str × List Node)) (v : Ofx.ImageData) : Prop :=
  Called "IMAGEDATA" es ∧
  Holds env (.enum enumImageType) (found es [] "IMAGETYPE") v.ImageType ∧
  Holds env .str (found es [] "IMAGEREF") v.ImageRef ∧
  Holds env (.enum enumImageRefType) (found es [] "IMAGEREFTYPE") v.ImageRefType ∧
  Holds env .int (found es [] "IMAGEDELAY") v.ImageDelay ∧
  Maybe (Holds env .date) (found es [] "DTIMAGEAVAIL") v.DtImageAvail ∧
  Holds env .int (found es [] "IMAGETTL") v.ImageTTL ∧
  Holds env (.enum enumCheckSup) (found es [] "CHECKSUP") v.CheckSup

/-- bank.go 104-132 -/
def TransactionIs (env : Env) (es : List (Str × List Node)) (v : Ofx.Transaction) : Prop :=
  Called "STMTTRN" es ∧
  Holds env (.enum enumTrnType) (found es [] "TRNTYPE") v.TrnType ∧
  Holds env .date (found es [] "DTPOSTED") v.DtPosted ∧
  Maybe (Holds env .date) (found es [] "DTUSER") v.DtUser ∧
  Maybe (Holds env .date) (found es [] "DTAVAIL") v.DtAvail ∧
  Holds env .amount (found es [] "TRNAMT") v.TrnAmt ∧
  Holds env .str (found es [] "FITID") v.FiTID ∧
  Holds env .str (found es [] "CORRECTFITID") v.CorrectFiTID ∧
  Holds env (.enum enumCorrectAction) (found es [] "CORRECTACTION") v.CorrectAction ∧
  Holds env .str (found es [] "SRVRTID") v.SrvrTID ∧
  Holds env .str (found es [] "CHECKNUM") v.CheckNum ∧
  Holds env .str (found es [] "REFNUM") v.RefNum ∧
  Holds env .int (found es [] "SIC") v.SIC ∧
  Holds env .str (found es [] "PAYEEID") v.PayeeID ∧
  Holds env .str (found es [] "NAME") v.Name ∧
  Maybe (PayeeIs env) (found es [] "PAYEE") v.Payee ∧
  Holds env .str (found es [] "EXTDNAME") v.ExtdName ∧
  Maybe (BankAcctIs env) (found es [] "BANKACCTTO") v.BankAcctTo ∧
  Maybe (CCAcctIs env) (found es [] "CCACCTTO") v.CCAcctTo ∧
  Holds env .str (found es [] "MEMO") v.Memo ∧
  Each (ImageDataIs env) (found es [] "IMAGEDATA") v.ImageData ∧
  Maybe (CurrencyIs env) (found es [] "CURRENCY") v.Currency ∧
  Maybe (CurrencyIs env) (found es [] "ORIGCURRENCY") v.OrigCurrency ∧
  Holds env (.enum enumInv401kSource) (found es [] "INV401KSOURCE") v.Inv401kSource

/-- bank.go 184-189 -/
def TransactionListIs (env : Env) (es : List (Str × List Node)) (v : Ofx.TransactionList) : Prop :=
  Called "BANKTRANLIST" es ∧
  Holds env .date (found es [] "DTSTART") v.DtStart ∧
  Holds env .date (found es [] "DTEND") v.DtEnd ∧
  Each (TransactionIs env) (found es [] "STMTTRN") v.Transactions

/-- bank.go 211-226 -/
def PendingTransactionIs (env : Env) (es : List (Str × List Node)) (v : Ofx.PendingTransaction) : Prop :=
  Called "STMTTRNP" es ∧
  Holds env (.enum enumTrnType) (found es [] "TRNTYPE") v.TrnType ∧
  Holds env .date (found es [] "DTTRAN") v.DtTran ∧
  Maybe (Holds env .date) (found es [] "DTEXPIRE") v.DtExpire ∧
  Holds env .amount (found es [] "TRNAMT") v.TrnAmt ∧
  Holds env .str (found es [] "REFNUM") v.RefNum ∧
  Holds env .str (found es [] "NAME") v.Name ∧
  Holds env .str (found es [] "EXTDNAME") v.ExtdName ∧
  Holds env .str (found es [] "MEMO") v.Memo ∧
  Each (ImageDataIs env) (found es [] "IMAGEDATA") v.ImageData ∧
  CurrencyIs env (found es [] "CURRENCY") v.Currency ∧
  CurrencyIs env (found es [] "ORIGCURRENCY") v.OrigCurrency

/-- bank.go 248-252 -/
def PendingTransactionListIs (env : Env) (es : List (Str × List Node)) (v : Ofx.PendingTransactionList) : Prop :=
  Called "BANKTRANLISTP" es ∧
  Holds env .date (found es [] "DTASOF") v.DtAsOf ∧
  Each (PendingTransactionIs env) (found es [] "STMTTRNP") v.Transactions

/-- bank.go 270-284 -/
def BalanceIs (env : Env) (es : List (Str × List Node)) (v : Ofx.Balance) : Prop :=
  Called "BAL" es ∧
  Holds env .str (found es [] "NAME") v.Name ∧
  Holds env .str (found es [] "DESC") v.Desc ∧
  Holds env (.enum enumBalType) (found es [] "BALTYPE") v.BalType ∧
  Holds env .amount (found es [] "VALUE") v.Value ∧
  Maybe (Holds env .date) (found es [] "DTASOF") v.DtAsOf ∧
  Maybe (CurrencyIs env) (found es [] "CURRENCY") v.Currency

/-- bank.go 300-318 -/
def StatementResponseIs (env : Env) (es : List (Str × List Node)) (v : Ofx.StatementResponse) : Prop :=
  Called "STMTTRNRS" es ∧
  Holds env .uid (found es [] "TRNUID") v.TrnUID ∧
  StatusIs env (found es [] "STATUS") v.Status ∧
  Holds env .str (found es [] "CLTCOOKIE") v.CltCookie ∧
  Holds env .curr (found es ["STMTRS"] "CURDEF") v.CurDef ∧
  BankAcctIs env (found es ["STMTRS"] "BANKACCTFROM") v.BankAcctFrom ∧
  Maybe (TransactionListIs env) (found es ["STMTRS"] "BANKTRANLIST") v.BankTranList ∧
  Maybe (PendingTransactionListIs env) (found es ["STMTRS"] "BANKTRANLISTP") v.BankTranListP ∧
  Holds env .amount (found es ["STMTRS", "LEDGERBAL"] "BALAMT") v.BalAmt ∧
  Holds env .date (found es ["STMTRS", "LEDGERBAL"] "DTASOF") v.DtAsOf ∧
  Maybe (Holds env .amount) (found es ["STMTRS", "AVAILBAL"] "BALAMT") v.AvailBalAmt ∧
  Maybe (Holds env .date) (found es ["STMTRS", "AVAILBAL"] "DTASOF") v.AvailDtAsOf ∧
  Maybe (Holds env .amount) (found es ["STMTRS"] "CASHADVBALAMT") v.CashAdvBalAmt ∧
  Maybe (Holds env .amount) (found es ["STMTRS"] "INTRATE") v.IntRate ∧
  Each (BalanceIs env) (found es ["STMTRS", "BALLIST"] "BAL") v.BalList ∧
  Holds env .str (found es ["STMTRS"] "MKTGINFO") v.MktgInfo

/-- creditcard.go 10-22 -/
def CCStatementRequestIs (env : Env) (es : List (Str × List Node)) (v : Ofx.CCStatementRequest) : Prop :=
  Called "CCSTMTTRNRQ" es ∧
  Holds env .uid (found es [] "TRNUID") v.TrnUID ∧
  Holds env .str (found es [] "CLTCOOKIE") v.CltCookie ∧
  Holds env .str (found es [] "TAN") v.TAN ∧
  CCAcctIs env (found es ["CCSTMTRQ"] "CCACCTFROM") v.CCAcctFrom ∧
  Maybe (Holds env .date) (found es ["CCSTMTRQ", "INCTRAN"] "DTSTART") v.DtStart ∧
  Maybe (Holds env .date) (found es ["CCSTMTRQ", "INCTRAN"] "DTEND") v.DtEnd ∧
  Holds env .bool (found es ["CCSTMTRQ", "INCTRAN"] "INCLUDE") v.Include ∧
  Holds env .bool (found es ["CCSTMTRQ"] "INCLUDEPENDING") v.IncludePending ∧
  Holds env .bool (found es ["CCSTMTRQ"] "INCTRANIMG") v.IncTranImg

/-- creditcard.go 48-71 -/
def CCStatementResponseIs (env : Env) (es : List (Str × List Node)) (v : Ofx.CCStatementResponse) : Prop :=
  Called "CCSTMTTRNRS" es ∧
  Holds env .uid (found es [] "TRNUID") v.TrnUID ∧
  StatusIs env (found es [] "STATUS") v.Status ∧
  Holds env .str (found es [] "CLTCOOKIE") v.CltCookie ∧
  Holds env .curr (found es ["CCSTMTRS"] "CURDEF") v.CurDef ∧
  CCAcctIs env (found es ["CCSTMTRS"] "CCACCTFROM") v.CCAcctFrom ∧
  Maybe (TransactionListIs env) (found es ["CCSTMTRS"] "BANKTRANLIST") v.BankTranList ∧
  Holds env .amount (found es ["CCSTMTRS", "LEDGERBAL"] "BALAMT") v.BalAmt ∧
  Holds env .date (found es ["CCSTMTRS", "LEDGERBAL"] "DTASOF") v.DtAsOf ∧
  Maybe (Holds env .amount) (found es ["CCSTMTRS", "AVAILBAL"] "BALAMT") v.AvailBalAmt ∧
  Maybe (Holds env .date) (found es ["CCSTMTRS", "AVAILBAL"] "DTASOF") v.AvailDtAsOf ∧
  Holds env .amount (found es ["CCSTMTRS"] "CASHADVBALAMT") v.CashAdvBalAmt ∧
  Holds env .amount (found es ["CCSTMTRS"] "INTRATEPURCH") v.IntRatePurch ∧
  Holds env .amount (found es ["CCSTMTRS"] "INTRATECASH") v.IntRateCash ∧
  Holds env .amount (found es ["CCSTMTRS"] "INTRATEXFER") v.IntRateXfer ∧
  Holds env .str (found es ["CCSTMTRS", "REWARDINFO"] "NAME") v.RewardName ∧
  Holds env .amount (found es ["CCSTMTRS", "REWARDINFO"] "REWARDBAL") v.RewardBal ∧
  Holds env .amount (found es ["CCSTMTRS", "REWARDINFO"] "REWARDEARNED") v.RewardEarned ∧
  Each (BalanceIs env) (found es ["CCSTMTRS", "BALLIST"] "BAL") v.BalList ∧
  Holds env .str (found es ["CCSTMTRS"] "MKTGINFO") v.MktgInfo

/-- signon.go 11-24 -/
def SignonRequestIs (env : Env) (es : List (Str × List Node)) (v : Ofx.SignonRequest) : Prop :=
  Called "SONRQ" es ∧
  Holds env .date (found es [] "DTCLIENT") v.DtClient ∧
  Holds env .str (found es [] "USERID") v.UserID ∧
  Holds env .str (found es [] "USERPASS") v.UserPass ∧
  Holds env .str (found es [] "USERKEY") v.UserKey ∧
  Holds env .bool (found es [] "GENUSERKEY") v.GenUserKey ∧
  Holds env .str (found es [] "LANGUAGE") v.Language ∧
  Holds env .str (found es ["FI"] "ORG") v.Org ∧
  Holds env .str (found es ["FI"] "FID") v.Fid ∧
  Holds env .str (found es [] "APPID") v.AppID ∧
  Holds env .str (found es [] "APPVER") v.AppVer ∧
  Holds env .uid (found es [] "CLIENTUID") v.ClientUID

/-- signon.go 62-75 -/
def SignonResponseIs (env : Env) (es : List (Str × List Node)) (v : Ofx.SignonResponse) : Prop :=
  Called "SONRS" es ∧
  StatusIs env (found es [] "STATUS") v.Status ∧
  Holds env .date (found es [] "DTSERVER") v.DtServer ∧
  Holds env .str (found es [] "USERKEY") v.UserKey ∧
  Maybe (Holds env .date) (found es [] "TSKEYEXPIRE") v.TsKeyExpire ∧
  Holds env .str (found es [] "LANGUAGE") v.Language ∧
  Maybe (Holds env .date) (found es [] "DTPROFUP") v.DtProfUp ∧
  Maybe (Holds env .date) (found es [] "DTACCTUP") v.DtAcctUp ∧
  Holds env .str (found es ["FI"] "ORG") v.Org ∧
  Holds env .str (found es ["FI"] "FID") v.Fid ∧
  Holds env .str (found es [] "SESSCOOKIE") v.SessCookie ∧
  Holds env .str (found es [] "ACCESSKEY") v.AccessKey

/-- signup.go 10-17 -/
def AcctInfoRequestIs (env : Env) (es : List (Str × List Node)) (v : Ofx.AcctInfoRequest) : Prop :=
  Called "ACCTINFOTRNRQ" es ∧
  Holds env .uid (found es [] "TRNUID") v.TrnUID ∧
  Holds env .str (found es [] "CLTCOOKIE") v.CltCookie ∧
  Holds env .str (found es [] "TAN") v.TAN ∧
  Holds env .date (found es ["ACCTINFORQ"] "DTACCTUP") v.DtAcctUp

/-- signup.go 41-57 -/
def HolderInfoIs (env : Env) (es : List (Str × List Node)) (v : Ofx.HolderInfo) : Prop :=
  v.XMLName = (es.getLast?.map (fun e => e.1)).getD [] ∧
  Holds env .str (found es [] "FIRSTNAME") v.FirstName ∧
  Holds env .str (found es [] "MIDDLENAME") v.MiddleName ∧
  Holds env .str (found es [] "LASTNAME") v.LastName ∧
  Holds env .str (found es [] "ADDR1") v.Addr1 ∧
  Holds env .str (found es [] "ADDR2") v.Addr2 ∧
  Holds env .str (found es [] "ADDR3") v.Addr3 ∧
  Holds env .str (found es [] "CITY") v.City ∧
  Holds env .str (found es [] "STATE") v.State ∧
  Holds env .str (found es [] "POSTALCODE") v.PostalCode ∧
  Holds env .str (found es [] "COUNTRY") v.Country ∧
  Holds env .str (found es [] "DAYPHONE") v.DayPhone ∧
  Holds env .str (found es [] "EVEPHONE") v.EvePhone ∧
  Holds env .str (found es [] "EMAIL") v.Email ∧
  Holds env (.enum enumHolderType) (found es [] "HOLDERTYPE") v.HolderType

/-- signup.go 62-74 -/
def BankAcctInfoIs (env : Env) (es : List (Str × List Node)) (v : Ofx.BankAcctInfo) : Prop :=
  Called "BANKACCTINFO" es ∧
  BankAcctIs env (found es [] "BANKACCTFROM") v.BankAcctFrom ∧
  Holds env .bool (found es [] "SUPTXDL") v.SupTxDl ∧
  Holds env .bool (found es [] "XFERSRC") v.XferSrc ∧
  Holds env .bool (found es [] "XFERDEST") v.XferDest ∧
  Holds env .date (found es [] "MATURITYDATE") v.MaturityDate ∧
  Holds env .amount (found es [] "MATURITYAMOUNT") v.MaturityAmt ∧
  Holds env .amount (found es [] "MINBALREQ") v.MinBalReq ∧
  Holds env (.enum enumAcctClassification) (found es [] "ACCTCLASSIFICATION") v.AcctClassification ∧
  Holds env .amount (found es [] "OVERDRAFTLIMIT") v.OverdraftLimit ∧
  Holds env (.enum enumSvcStatus) (found es [] "SVCSTATUS") v.SvcStatus

/-- signup.go 84-92 -/
def CCAcctInfoIs (env : Env) (es : List (Str × List Node)) (v : Ofx.CCAcctInfo) : Prop :=
  Called "CCACCTINFO" es ∧
  CCAcctIs env (found es [] "CCACCTFROM") v.CCAcctFrom ∧
  Holds env .bool (found es [] "SUPTXDL") v.SupTxDl ∧
  Holds env .bool (found es [] "XFERSRC") v.XferSrc ∧
  Holds env .bool (found es [] "XFERDEST") v.XferDest ∧
  Holds env (.enum enumAcctClassification) (found es [] "ACCTCLASSIFICATION") v.AcctClassification ∧
  Holds env (.enum enumSvcStatus) (found es [] "SVCSTATUS") v.SvcStatus

/-- signup.go 102-110 -/
def InvAcctInfoIs (env : Env) (es : List (Str × List Node)) (v : Ofx.InvAcctInfo) : Prop :=
  Called "INVACCTINFO" es ∧
  InvAcctIs env (found es [] "INVACCTFROM") v.InvAcctFrom ∧
  Holds env (.enum enumUsProductType) (found es [] "USPRODUCTTYPE") v.UsProductType ∧
  Holds env .bool (found es [] "CHECKING") v.Checking ∧
  Holds env (.enum enumSvcStatus) (found es [] "SVCSTATUS") v.SvcStatus ∧
  Holds env (.enum enumHolderType) (found es [] "INVACCTTYPE") v.InvAcctType ∧
  Holds env .str (found es [] "OPTIONLEVEL") v.OptionLevel

/-- signup.go 120-134 -/
def AcctInfoIs (env : Env) (es : List (Str × List Node)) (v : Ofx.AcctInfo) : Prop :=
  Called "ACCTINFO" es ∧
  Holds env .str (found es [] "NAME") v.Name ∧
  Holds env .str (found es [] "DESC") v.Desc ∧
  Holds env .str (found es [] "PHONE") v.Phone ∧
  HolderInfoIs env (found es ["HOLDERINFO"] "PRIMARYHOLDER") v.PrimaryHolder ∧
  HolderInfoIs env (found es ["HOLDERINFO"] "SECONDARYHOLDER") v.SecondaryHolder ∧
  Maybe (BankAcctInfoIs env) (found es [] "BANKACCTINFO") v.BankAcctInfo ∧
  Maybe (CCAcctInfoIs env) (found es [] "CCACCTINFO") v.CCAcctInfo ∧
  Maybe (InvAcctInfoIs env) (found es [] "INVACCTINFO") v.InvAcctInfo

/-- signup.go 138-146 -/
def AcctInfoResponseIs (env : Env) (es : List (Str × List Node)) (v : Ofx.AcctInfoResponse) : Prop :=
  Called "ACCTINFOTRNRS" es ∧
  Holds env .uid (found es [] "TRNUID") v.TrnUID ∧
  StatusIs env (found es [] "STATUS") v.Status ∧
  Holds env .str (found es [] "CLTCOOKIE") v.CltCookie ∧
  Holds env .date (found es ["ACCTINFORS"] "DTACCTUP") v.DtAcctUp ∧
  Each (AcctInfoIs env) (found es ["ACCTINFORS"] "ACCTINFO") v.AcctInfo

/-- profile.go 12-20 -/
def ProfileRequestIs (env : Env) (es : List (Str × List Node)) (v : Ofx.ProfileRequest) : Prop :=
  Called "PROFTRNRQ" es ∧
  Holds env .uid (found es [] "TRNUID") v.TrnUID ∧
  Holds env .str (found es [] "CLTCOOKIE") v.CltCookie ∧
  Holds env .str (found es [] "TAN") v.TAN ∧
  Holds env .str (found es ["PROFRQ"] "CLIENTROUTING") v.ClientRouting ∧
  Holds env .date (found es ["PROFRQ"] "DTPROFUP") v.DtProfUp

/-- profile.go 48-68 -/
def SignonInfoIs (env : Env) (es : List (Str × List Node)) (v : Ofx.SignonInfo) : Prop :=
  Called "SIGNONINFO" es ∧
  Holds env .str (found es [] "SIGNONREALM") v.SignonRealm ∧
  Holds env .int (found es [] "MIN") v.Min ∧
  Holds env .int (found es [] "MAX") v.Max ∧
  Holds env (.enum enumCharType) (found es [] "CHARTYPE") v.CharType ∧
  Holds env .bool (found es [] "CASESEN") v.CaseSen ∧
  Holds env .bool (found es [] "SPECIAL") v.Special ∧
  Holds env .bool (found es [] "SPACES") v.Spaces ∧
  Holds env .bool (found es [] "PINCH") v.PinCh ∧
  Holds env .bool (found es [] "CHGPINFIRST") v.ChgPinFirst ∧
  Holds env .str (found es [] "USERCRED1LABEL") v.UserCred1Label ∧
  Holds env .str (found es [] "USERCRED2LABEL") v.UserCred2Label ∧
  Holds env .bool (found es [] "CLIENTUIDREQ") v.ClientUIDReq ∧
  Holds env .bool (found es [] "AUTHTOKENFIRST") v.AuthTokenFirst ∧
  Holds env .str (found es [] "AUTHTOKENLABEL") v.AuthTokenLabel ∧
  Holds env .str (found es [] "AUTHTOKENINFOURL") v.AuthTokenInfoURL ∧
  Holds env .bool (found es [] "MFACHALLENGESUPT") v.MFAChallengeSupt ∧
  Holds env .bool (found es [] "MFACHALLENGEFIRST") v.MFAChallengeFIRST ∧
  Holds env .bool (found es [] "ACCESSTOKENREQ") v.AccessTokenReq

/-- profile.go 72-86 -/
def MessageSetIs (env : Env) (e : Str × List Node) (v : Ofx.MessageSet) : Prop :=
  v.Name = v.XMLName ∧ ∃ es, OnlyElements e.2 ∧ elems e.2 = es ∧ es.map (fun e => e.1) = [v.XMLName] ∧
  Holds env .int (found es ["MSGSETCORE"] "VER") v.Ver ∧
  Holds env .str (found es ["MSGSETCORE"] "URL") v.URL ∧
  Holds env (.enum enumOfxSec) (found es ["MSGSETCORE"] "OFXSEC") v.OfxSec ∧
  Holds env .bool (found es ["MSGSETCORE"] "TRANSPSEC") v.TranspSec ∧
  Holds env .str (found es ["MSGSETCORE"] "SIGNONREALM") v.SignonRealm ∧
  Each (Holds env .str) (found es ["MSGSETCORE"] "LANGUAGE") v.Language ∧
  Holds env (.enum enumSyncMode) (found es ["MSGSETCORE"] "SYNCMODE") v.SyncMode ∧
  Holds env .bool (found es ["MSGSETCORE"] "REFRESHSUPT") v.RefreshSupt ∧
  Holds env .bool (found es ["MSGSETCORE"] "RESPFILEER") v.RespFileER ∧
  Holds env .str (found es ["MSGSETCORE"] "SPNAME") v.SpName

/-- profile.go 90: one message set for each element in the content. -/
def MessageSetListIs (env : Env) (es : List (Str × List Node)) (v : Ofx.MessageSetList) : Prop :=
  OnlyElements (es.flatMap (fun e => e.2)) ∧ List.Forall₂ (MessageSetIs env) (elems (es.flatMap (fun e => e.2))) v

/-- profile.go 164-186 -/
def ProfileResponseIs (env : Env) (es : List (Str × List Node)) (v : Ofx.ProfileResponse) : Prop :=
  Called "PROFTRNRS" es ∧
  Holds env .uid (found es [] "TRNUID") v.TrnUID ∧
  StatusIs env (found es [] "STATUS") v.Status ∧
  Holds env .str (found es [] "CLTCOOKIE") v.CltCookie ∧
  MessageSetListIs env (found es ["PROFRS"] "MSGSETLIST") v.MessageSetList ∧
  Each (SignonInfoIs env) (found es ["PROFRS", "SIGNONINFOLIST"] "SIGNONINFO") v.SignonInfoList ∧
  Holds env .date (found es ["PROFRS"] "DTPROFUP") v.DtProfUp ∧
  Holds env .str (found es ["PROFRS"] "FINAME") v.FiName ∧
  Holds env .str (found es ["PROFRS"] "ADDR1") v.Addr1 ∧
  Holds env .str (found es ["PROFRS"] "ADDR2") v.Addr2 ∧
  Holds env .str (found es ["PROFRS"] "ADDR3") v.Addr3 ∧
  Holds env .str (found es ["PROFRS"] "CITY") v.City ∧
  Holds env .str (found es ["PROFRS"] "STATE") v.State ∧
  Holds env .str (found es ["PROFRS"] "POSTALCODE") v.PostalCode ∧
  Holds env .str (found es ["PROFRS"] "COUNTRY") v.Country ∧
  Holds env .str (found es ["PROFRS"] "CSPHONE") v.CsPhone ∧
  Holds env .str (found es ["PROFRS"] "TSPHONE") v.TsPhone ∧
  Holds env .str (found es ["PROFRS"] "FAXPHONE") v.FaxPhone ∧
  Holds env .str (found es ["PROFRS"] "URL") v.URL ∧
  Holds env .str (found es ["PROFRS"] "EMAIL") v.Email

/-- seclist.go 10-14 -/
def SecurityIDIs (env : Env) (es : List (Str × List Node)) (v : Ofx.SecurityID) : Prop :=
  Called "SECID" es ∧
  Holds env .str (found es [] "UNIQUEID") v.UniqueID ∧
  Holds env .str (found es [] "UNIQUEIDTYPE") v.UniqueIDType

/-- seclist.go 19-25 -/
def SecurityRequestIs (env : Env) (es : List (Str × List Node)) (v : Ofx.SecurityRequest) : Prop :=
  Called "SECRQ" es ∧
  Maybe (SecurityIDIs env) (found es [] "SECID") v.SecID ∧
  Holds env .str (found es [] "TICKER") v.Ticker ∧
  Holds env .str (found es [] "FIID") v.FiID

/-- seclist.go 29-36 -/
def SecListRequestIs (env : Env) (es : List (Str × List Node)) (v : Ofx.SecListRequest) : Prop :=
  Called "SECLISTTRNRQ" es ∧
  Holds env .uid (found es [] "TRNUID") v.TrnUID ∧
  Holds env .str (found es [] "CLTCOOKIE") v.CltCookie ∧
  Holds env .str (found es [] "TAN") v.TAN ∧
  Each (SecurityRequestIs env) (found es ["SECLISTRQ"] "SECRQ") v.Securities

/-- seclist.go 64-71 -/
def SecListResponseIs (env : Env) (es : List (Str × List Node)) (v : Ofx.SecListResponse) : Prop :=
  Called "SECLISTTRNRS" es ∧
  Holds env .uid (found es [] "TRNUID") v.TrnUID ∧
  StatusIs env (found es [] "STATUS") v.Status ∧
  Holds env .str (found es [] "CLTCOOKIE") v.CltCookie

/-- seclist.go 102-113 -/
def SecInfoIs (env : Env) (es : List (Str × List Node)) (v : Ofx.SecInfo) : Prop :=
  Called "SECINFO" es ∧
  SecurityIDIs env (found es [] "SECID") v.SecID ∧
  Holds env .str (found es [] "SECNAME") v.SecName ∧
  Holds env .str (found es [] "TICKER") v.Ticker ∧
  Holds env .str (found es [] "FIID") v.FiID ∧
  Holds env .str (found es [] "RATING") v.Rating ∧
  Holds env .amount (found es [] "UNITPRICE") v.UnitPrice ∧
  Maybe (Holds env .date) (found es [] "DTASOF") v.DtAsOf ∧
  Maybe (CurrencyIs env) (found es [] "CURRENCY") v.Currency ∧
  Holds env .str (found es [] "MEMO") v.Memo

/-- seclist.go 116-133 -/
def DebtInfoIs (env : Env) (es : List (Str × List Node)) (v : Ofx.DebtInfo) : Prop :=
  Called "DEBTINFO" es ∧
  SecInfoIs env (found es [] "SECINFO") v.SecInfo ∧
  Holds env .amount (found es [] "PARVALUE") v.ParValue ∧
  Holds env (.enum enumDebtType) (found es [] "DEBTTYPE") v.DebtType ∧
  Holds env (.enum enumDebtClass) (found es [] "DEBTCLASS") v.DebtClass ∧
  Holds env .amount (found es [] "COUPONRT") v.CouponRate ∧
  Maybe (Holds env .date) (found es [] "DTCOUPON") v.DtCoupon ∧
  Holds env (.enum enumCouponFreq) (found es [] "COUPONFREQ") v.CouponFreq ∧
  Holds env .amount (found es [] "CALLPRICE") v.CallPrice ∧
  Holds env .amount (found es [] "YIELDTOCALL") v.YieldToCall ∧
  Maybe (Holds env .date) (found es [] "DTCALL") v.DtCall ∧
  Holds env (.enum enumCallType) (found es [] "CALLTYPE") v.CallType ∧
  Holds env .amount (found es [] "YIELDTOMAT") v.YieldToMat ∧
  Maybe (Holds env .date) (found es [] "DTMAT") v.DtMat ∧
  Holds env (.enum enumAssetClass) (found es [] "ASSETCLASS") v.AssetClass ∧
  Holds env .str (found es [] "FIASSETCLASS") v.FiAssetClass

/-- seclist.go 147-151 -/
def AssetPortionIs (env : Env) (es : List (Str × List Node)) (v : Ofx.AssetPortion) : Prop :=
  Called "PORTION" es ∧
  Holds env (.enum enumAssetClass) (found es [] "ASSETCLASS") v.AssetClass ∧
  Holds env .amount (found es [] "PERCENT") v.Percent

/-- seclist.go 156-160 -/
def FiAssetPortionIs (env : Env) (es : List (Str × List Node)) (v : Ofx.FiAssetPortion) : Prop :=
  Called "FIPORTION" es ∧
  Holds env .str (found es [] "FIASSETCLASS") v.FiAssetClass ∧
  Holds env .amount (found es [] "PERCENT") v.Percent

/-- seclist.go 163-171 -/
def MFInfoIs (env : Env) (es : List (Str × List Node)) (v : Ofx.MFInfo) : Prop :=
  Called "MFINFO" es ∧
  SecInfoIs env (found es [] "SECINFO") v.SecInfo ∧
  Holds env (.enum enumMfType) (found es [] "MFTYPE") v.MfType ∧
  Holds env .amount (found es [] "YIELD") v.Yield ∧
  Maybe (Holds env .date) (found es [] "DTYIELDASOF") v.DtYieldAsOf ∧
  Each (AssetPortionIs env) (found es ["MFASSETCLASS"] "PORTION") v.AssetClasses ∧
  Each (FiAssetPortionIs env) (found es ["FIMFASSETCLASS"] "FIPORTION") v.FiAssetClasses

/-- seclist.go 184-194 -/
def OptInfoIs (env : Env) (es : List (Str × List Node)) (v : Ofx.OptInfo) : Prop :=
  Called "OPTINFO" es ∧
  SecInfoIs env (found es [] "SECINFO") v.SecInfo ∧
  Holds env (.enum enumOptType) (found es [] "OPTTYPE") v.OptType ∧
  Holds env .amount (found es [] "STRIKEPRICE") v.StrikePrice ∧
  Holds env .date (found es [] "DTEXPIRE") v.DtExpire ∧
  Holds env .int (found es [] "SHPERCTRCT") v.ShPerCtrct ∧
  Maybe (SecurityIDIs env) (found es [] "SECID") v.SecID ∧
  Holds env (.enum enumAssetClass) (found es [] "ASSETCLASS") v.AssetClass ∧
  Holds env .str (found es [] "FIASSETCLASS") v.FiAssetClass

/-- seclist.go 208-214 -/
def OtherInfoIs (env : Env) (es : List (Str × List Node)) (v : Ofx.OtherInfo) : Prop :=
  Called "OTHERINFO" es ∧
  SecInfoIs env (found es [] "SECINFO") v.SecInfo ∧
  Holds env .str (found es [] "TYPEDESC") v.TypeDesc ∧
  Holds env (.enum enumAssetClass) (found es [] "ASSETCLASS") v.AssetClass ∧
  Holds env .str (found es [] "FIASSETCLASS") v.FiAssetClass

/-- seclist.go 227-235 -/
def StockInfoIs (env : Env) (es : List (Str × List Node)) (v : Ofx.StockInfo) : Prop :=
  Called "STOCKINFO" es ∧
  SecInfoIs env (found es [] "SECINFO") v.SecInfo ∧
  Holds env (.enum enumStockType) (found es [] "STOCKTYPE") v.StockType ∧
  Holds env .amount (found es [] "YIELD") v.Yield ∧
  Maybe (Holds env .date) (found es [] "DTYIELDASOF") v.DtYieldAsOf ∧
  Holds env (.enum enumAssetClass) (found es [] "ASSETCLASS") v.AssetClass ∧
  Holds env .str (found es [] "FIASSETCLASS") v.FiAssetClass

/-- The element is this Security. -/
def SecurityIs (env : Env) (e : Str × List Node) : Ofx.Security → Prop
  | .debtInfo v => e.1 = "DEBTINFO".toList ∧ DebtInfoIs env [e] v
  | .mfInfo v => e.1 = "MFINFO".toList ∧ MFInfoIs env [e] v
  | .optInfo v => e.1 = "OPTINFO".toList ∧ OptInfoIs env [e] v
  | .otherInfo v => e.1 = "OTHERINFO".toList ∧ OtherInfoIs env [e] v
  | .stockInfo v => e.1 = "STOCKINFO".toList ∧ StockInfoIs env [e] v

/-- The names of the elements that are a Security. -/
def namesSecurity : List String := ["DEBTINFO", "MFINFO", "OPTINFO", "OTHERINFO", "STOCKINFO"]

/-- seclist.go 249-252. -/
def SecurityListIs (env : Env) (es : List (Str × List Node)) (v : Ofx.SecurityList) : Prop :=
  EachCalled namesSecurity (SecurityIs env) es v.Securities ∧ OnlyCalled namesSecurity es

/-- invstmt.go 11-28 -/
def InvStatementRequestIs (env : Env) (es : List (Str × List Node)) (v : Ofx.InvStatementRequest) : Prop :=
  Called "INVSTMTTRNRQ" es ∧
  Holds env .uid (found es [] "TRNUID") v.TrnUID ∧
  Holds env .str (found es [] "CLTCOOKIE") v.CltCookie ∧
  Holds env .str (found es [] "TAN") v.TAN ∧
  InvAcctIs env (found es ["INVSTMTRQ"] "INVACCTFROM") v.InvAcctFrom ∧
  Maybe (Holds env .date) (found es ["INVSTMTRQ", "INCTRAN"] "DTSTART") v.DtStart ∧
  Maybe (Holds env .date) (found es ["INVSTMTRQ", "INCTRAN"] "DTEND") v.DtEnd ∧
  Holds env .bool (found es ["INVSTMTRQ", "INCTRAN"] "INCLUDE") v.Include ∧
  Holds env .bool (found es ["INVSTMTRQ"] "INCOO") v.IncludeOO ∧
  Maybe (Holds env .date) (found es ["INVSTMTRQ", "INCPOS"] "DTASOF") v.PosDtAsOf ∧
  Holds env .bool (found es ["INVSTMTRQ", "INCPOS"] "INCLUDE") v.IncludePos ∧
  Holds env .bool (found es ["INVSTMTRQ"] "INCBAL") v.IncludeBalance ∧
  Holds env .bool (found es ["INVSTMTRQ"] "INC401K") v.Include401K ∧
  Holds env .bool (found es ["INVSTMTRQ"] "INC401KBAL") v.Include401KBal ∧
  Holds env .bool (found es ["INVSTMTRQ"] "INCTRANIMAGE") v.IncludeTranImage

/-- invstmt.go 54-62 -/
def InvTranIs (env : Env) (es : List (Str × List Node)) (v : Ofx.InvTran) : Prop :=
  Called "INVTRAN" es ∧
  Holds env .str (found es [] "FITID") v.FiTID ∧
  Holds env .str (found es [] "SRVRTID") v.SrvrTID ∧
  Holds env .date (found es [] "DTTRADE") v.DtTrade ∧
  Maybe (Holds env .date) (found es [] "DTSETTLE") v.DtSettle ∧
  Holds env .str (found es [] "REVERSALFITID") v.ReversalFiTID ∧
  Holds env .str (found es [] "MEMO") v.Memo

/-- invstmt.go 66-91 -/
def InvBuyIs (env : Env) (es : List (Str × List Node)) (v : Ofx.InvBuy) : Prop :=
  Called "INVBUY" es ∧
  InvTranIs env (found es [] "INVTRAN") v.InvTran ∧
  SecurityIDIs env (found es [] "SECID") v.SecID ∧
  Holds env .amount (found es [] "UNITS") v.Units ∧
  Holds env .amount (found es [] "UNITPRICE") v.UnitPrice ∧
  Holds env .amount (found es [] "MARKUP") v.Markup ∧
  Holds env .amount (found es [] "COMMISSION") v.Commission ∧
  Holds env .amount (found es [] "TAXES") v.Taxes ∧
  Holds env .amount (found es [] "FEES") v.Fees ∧
  Holds env .amount (found es [] "LOAD") v.Load ∧
  Holds env .amount (found es [] "TOTAL") v.Total ∧
  CurrencyIs env (found es [] "CURRENCY") v.Currency ∧
  CurrencyIs env (found es [] "ORIGCURRENCY") v.OrigCurrency ∧
  Holds env (.enum enumSubAcctType) (found es [] "SUBACCTSEC") v.SubAcctSec ∧
  Holds env (.enum enumSubAcctType) (found es [] "SUBACCTFUND") v.SubAcctFund ∧
  Holds env .str (found es [] "LOANID") v.LoanID ∧
  Holds env .amount (found es [] "LOANPRINCIPAL") v.LoanPrincipal ∧
  Holds env .amount (found es [] "LOANINTEREST") v.LoanInterest ∧
  Holds env (.enum enumInv401kSource) (found es [] "INV401KSOURCE") v.Inv401kSource ∧
  Maybe (Holds env .date) (found es [] "DTPAYROLL") v.DtPayroll ∧
  Holds env .bool (found es [] "PRIORYEARCONTRIB") v.PriorYearContrib

/-- invstmt.go 95-120 -/
def InvSellIs (env : Env) (es : List (Str × List Node)) (v : Ofx.InvSell) : Prop :=
  Called "INVSELL" es ∧
  InvTranIs env (found es [] "INVTRAN") v.InvTran ∧
  SecurityIDIs env (found es [] "SECID") v.SecID ∧
  Holds env .amount (found es [] "UNITS") v.Units ∧
  Holds env .amount (found es [] "UNITPRICE") v.UnitPrice ∧
  Holds env .amount (found es [] "MARKDOWN") v.Markdown ∧
  Holds env .amount (found es [] "COMMISSION") v.Commission ∧
  Holds env .amount (found es [] "TAXES") v.Taxes ∧
  Holds env .amount (found es [] "FEES") v.Fees ∧
  Holds env .amount (found es [] "LOAD") v.Load ∧
  Holds env .amount (found es [] "WITHHOLDING") v.Withholding ∧
  Holds env .bool (found es [] "TAXEXEMPT") v.TaxExempt ∧
  Holds env .amount (found es [] "TOTAL") v.Total ∧
  Holds env .amount (found es [] "GAIN") v.Gain ∧
  CurrencyIs env (found es [] "CURRENCY") v.Currency ∧
  CurrencyIs env (found es [] "ORIGCURRENCY") v.OrigCurrency ∧
  Holds env (.enum enumSubAcctType) (found es [] "SUBACCTSEC") v.SubAcctSec ∧
  Holds env (.enum enumSubAcctType) (found es [] "SUBACCTFUND") v.SubAcctFund ∧
  Holds env .str (found es [] "LOANID") v.LoanID ∧
  Holds env .amount (found es [] "STATEWITHHOLDING") v.StateWithholding ∧
  Holds env .amount (found es [] "PENALTY") v.Penalty ∧
  Holds env (.enum enumInv401kSource) (found es [] "INV401KSOURCE") v.Inv401kSource

/-- invstmt.go 123-127 -/
def BuyDebtIs (env : Env) (es : List (Str × List Node)) (v : Ofx.BuyDebt) : Prop :=
  Called "BUYDEBT" es ∧
  InvBuyIs env (found es [] "INVBUY") v.InvBuy ∧
  Holds env .amount (found es [] "ACCRDINT") v.AccrdInt

/-- invstmt.go 139-144 -/
def BuyMFIs (env : Env) (es : List (Str × List Node)) (v : Ofx.BuyMF) : Prop :=
  Called "BUYMF" es ∧
  InvBuyIs env (found es [] "INVBUY") v.InvBuy ∧
  Holds env (.enum enumBuyType) (found es [] "BUYTYPE") v.BuyType ∧
  Holds env .str (found es [] "RELFITID") v.RelFiTID

/-- invstmt.go 156-161 -/
def BuyOptIs (env : Env) (es : List (Str × List Node)) (v : Ofx.BuyOpt) : Prop :=
  Called "BUYOPT" es ∧
  InvBuyIs env (found es [] "INVBUY") v.InvBuy ∧
  Holds env (.enum enumOptBuyType) (found es [] "OPTBUYTYPE") v.OptBuyType ∧
  Holds env .int (found es [] "SHPERCTRCT") v.ShPerCtrct

/-- invstmt.go 174-177 -/
def BuyOtherIs (env : Env) (es : List (Str × List Node)) (v : Ofx.BuyOther) : Prop :=
  Called "BUYOTHER" es ∧
  InvBuyIs env (found es [] "INVBUY") v.InvBuy

/-- invstmt.go 189-193 -/
def BuyStockIs (env : Env) (es : List (Str × List Node)) (v : Ofx.BuyStock) : Prop :=
  Called "BUYSTOCK" es ∧
  InvBuyIs env (found es [] "INVBUY") v.InvBuy ∧
  Holds env (.enum enumBuyType) (found es [] "BUYTYPE") v.BuyType

/-- invstmt.go 205-215 -/
def ClosureOptIs (env : Env) (es : List (Str × List Node)) (v : Ofx.ClosureOpt) : Prop :=
  Called "CLOSUREOPT" es ∧
  InvTranIs env (found es [] "INVTRAN") v.InvTran ∧
  SecurityIDIs env (found es [] "SECID") v.SecID ∧
  Holds env (.enum enumOptAction) (found es [] "OPTACTION") v.OptAction ∧
  Holds env .amount (found es [] "UNITS") v.Units ∧
  Holds env .int (found es [] "SHPERCTRCT") v.ShPerCtrct ∧
  Holds env (.enum enumSubAcctType) (found es [] "SUBACCTSEC") v.SubAcctSec ∧
  Holds env .str (found es [] "RELFITID") v.RelFiTID ∧
  Holds env .amount (found es [] "GAIN") v.Gain

/-- invstmt.go 228-241 -/
def IncomeIs (env : Env) (es : List (Str × List Node)) (v : Ofx.Income) : Prop :=
  Called "INCOME" es ∧
  InvTranIs env (found es [] "INVTRAN") v.InvTran ∧
  SecurityIDIs env (found es [] "SECID") v.SecID ∧
  Holds env (.enum enumIncomeType) (found es [] "INCOMETYPE") v.IncomeType ∧
  Holds env .amount (found es [] "TOTAL") v.Total ∧
  Holds env (.enum enumSubAcctType) (found es [] "SUBACCTSEC") v.SubAcctSec ∧
  Holds env (.enum enumSubAcctType) (found es [] "SUBACCTFUND") v.SubAcctFund ∧
  Holds env .bool (found es [] "TAXEXEMPT") v.TaxExempt ∧
  Holds env .amount (found es [] "WITHHOLDING") v.Withholding ∧
  CurrencyIs env (found es [] "CURRENCY") v.Currency ∧
  CurrencyIs env (found es [] "ORIGCURRENCY") v.OrigCurrency ∧
  Holds env (.enum enumInv401kSource) (found es [] "INV401KSOURCE") v.Inv401kSource

/-- invstmt.go 254-264 -/
def InvExpenseIs (env : Env) (es : List (Str × List Node)) (v : Ofx.InvExpense) : Prop :=
  Called "INVEXPENSE" es ∧
  InvTranIs env (found es [] "INVTRAN") v.InvTran ∧
  SecurityIDIs env (found es [] "SECID") v.SecID ∧
  Holds env .amount (found es [] "TOTAL") v.Total ∧
  Holds env (.enum enumSubAcctType) (found es [] "SUBACCTSEC") v.SubAcctSec ∧
  Holds env (.enum enumSubAcctType) (found es [] "SUBACCTFUND") v.SubAcctFund ∧
  CurrencyIs env (found es [] "CURRENCY") v.Currency ∧
  CurrencyIs env (found es [] "ORIGCURRENCY") v.OrigCurrency ∧
  Holds env (.enum enumInv401kSource) (found es [] "INV401KSOURCE") v.Inv401kSource

/-- invstmt.go 277-283 -/
def JrnlFundIs (env : Env) (es : List (Str × List Node)) (v : Ofx.JrnlFund) : Prop :=
  Called "JRNLFUND" es ∧
  InvTranIs env (found es [] "INVTRAN") v.InvTran ∧
  Holds env .amount (found es [] "TOTAL") v.Total ∧
  Holds env (.enum enumSubAcctType) (found es [] "SUBACCTFROM") v.SubAcctFrom ∧
  Holds env (.enum enumSubAcctType) (found es [] "SUBACCTTO") v.SubAcctTo

/-- invstmt.go 296-303 -/
def JrnlSecIs (env : Env) (es : List (Str × List Node)) (v : Ofx.JrnlSec) : Prop :=
  Called "JRNLSEC" es ∧
  InvTranIs env (found es [] "INVTRAN") v.InvTran ∧
  SecurityIDIs env (found es [] "SECID") v.SecID ∧
  Holds env (.enum enumSubAcctType) (found es [] "SUBACCTFROM") v.SubAcctFrom ∧
  Holds env (.enum enumSubAcctType) (found es [] "SUBACCTTO") v.SubAcctTo ∧
  Holds env .amount (found es [] "UNITS") v.Units

/-- invstmt.go 315-322 -/
def MarginInterestIs (env : Env) (es : List (Str × List Node)) (v : Ofx.MarginInterest) : Prop :=
  Called "MARGININTEREST" es ∧
  InvTranIs env (found es [] "INVTRAN") v.InvTran ∧
  Holds env .amount (found es [] "TOTAL") v.Total ∧
  Holds env (.enum enumSubAcctType) (found es [] "SUBACCTFUND") v.SubAcctFund ∧
  CurrencyIs env (found es [] "CURRENCY") v.Currency ∧
  CurrencyIs env (found es [] "ORIGCURRENCY") v.OrigCurrency

/-- invstmt.go 336-353 -/
def ReinvestIs (env : Env) (es : List (Str × List Node)) (v : Ofx.Reinvest) : Prop :=
  Called "REINVEST" es ∧
  InvTranIs env (found es [] "INVTRAN") v.InvTran ∧
  SecurityIDIs env (found es [] "SECID") v.SecID ∧
  Holds env (.enum enumIncomeType) (found es [] "INCOMETYPE") v.IncomeType ∧
  Holds env .amount (found es [] "TOTAL") v.Total ∧
  Holds env (.enum enumSubAcctType) (found es [] "SUBACCTSEC") v.SubAcctSec ∧
  Holds env .amount (found es [] "UNITS") v.Units ∧
  Holds env .amount (found es [] "UNITPRICE") v.UnitPrice ∧
  Holds env .amount (found es [] "COMMISSION") v.Commission ∧
  Holds env .amount (found es [] "TAXES") v.Taxes ∧
  Holds env .amount (found es [] "FEES") v.Fees ∧
  Holds env .amount (found es [] "LOAD") v.Load ∧
  Holds env .bool (found es [] "TAXEXEMPT") v.TaxExempt ∧
  CurrencyIs env (found es [] "CURRENCY") v.Currency ∧
  CurrencyIs env (found es [] "ORIGCURRENCY") v.OrigCurrency ∧
  Holds env (.enum enumInv401kSource) (found es [] "INV401KSOURCE") v.Inv401kSource

/-- invstmt.go 366-376 -/
def RetOfCapIs (env : Env) (es : List (Str × List Node)) (v : Ofx.RetOfCap) : Prop :=
  Called "RETOFCAP" es ∧
  InvTranIs env (found es [] "INVTRAN") v.InvTran ∧
  SecurityIDIs env (found es [] "SECID") v.SecID ∧
  Holds env .amount (found es [] "TOTAL") v.Total ∧
  Holds env (.enum enumSubAcctType) (found es [] "SUBACCTSEC") v.SubAcctSec ∧
  Holds env (.enum enumSubAcctType) (found es [] "SUBACCTFUND") v.SubAcctFund ∧
  CurrencyIs env (found es [] "CURRENCY") v.Currency ∧
  CurrencyIs env (found es [] "ORIGCURRENCY") v.OrigCurrency ∧
  Holds env (.enum enumInv401kSource) (found es [] "INV401KSOURCE") v.Inv401kSource

/-- invstmt.go 389-394 -/
def SellDebtIs (env : Env) (es : List (Str × List Node)) (v : Ofx.SellDebt) : Prop :=
  Called "SELLDEBT" es ∧
  InvSellIs env (found es [] "INVSELL") v.InvSell ∧
  Holds env (.enum enumSellReason) (found es [] "SELLREASON") v.SellReason ∧
  Holds env .amount (found es [] "ACCRDINT") v.AccrdInt

/-- invstmt.go 406-412 -/
def SellMFIs (env : Env) (es : List (Str × List Node)) (v : Ofx.SellMF) : Prop :=
  Called "SELLMF" es ∧
  InvSellIs env (found es [] "INVSELL") v.InvSell ∧
  Holds env (.enum enumSellType) (found es [] "SELLTYPE") v.SellType ∧
  Holds env .amount (found es [] "AVGCOSTBASIS") v.AvgCostBasis ∧
  Holds env .str (found es [] "RELFITID") v.RelFiTID

/-- invstmt.go 426-434 -/
def SellOptIs (env : Env) (es : List (Str × List Node)) (v : Ofx.SellOpt) : Prop :=
  Called "SELLOPT" es ∧
  InvSellIs env (found es [] "INVSELL") v.InvSell ∧
  Holds env (.enum enumOptSellType) (found es [] "OPTSELLTYPE") v.OptSellType ∧
  Holds env .int (found es [] "SHPERCTRCT") v.ShPerCtrct ∧
  Holds env .str (found es [] "RELFITID") v.RelFiTID ∧
  Holds env (.enum enumRelType) (found es [] "RELTYPE") v.RelType ∧
  Holds env (.enum enumSecured) (found es [] "SECURED") v.Secured

/-- invstmt.go 447-450 -/
def SellOtherIs (env : Env) (es : List (Str × List Node)) (v : Ofx.SellOther) : Prop :=
  Called "SELLOTHER" es ∧
  InvSellIs env (found es [] "INVSELL") v.InvSell

/-- invstmt.go 462-466 -/
def SellStockIs (env : Env) (es : List (Str × List Node)) (v : Ofx.SellStock) : Prop :=
  Called "SELLSTOCK" es ∧
  InvSellIs env (found es [] "INVSELL") v.InvSell ∧
  Holds env (.enum enumSellType) (found es [] "SELLTYPE") v.SellType

/-- invstmt.go 478-492 -/
def SplitIs (env : Env) (es : List (Str × List Node)) (v : Ofx.Split) : Prop :=
  Called "SPLIT" es ∧
  InvTranIs env (found es [] "INVTRAN") v.InvTran ∧
  SecurityIDIs env (found es [] "SECID") v.SecID ∧
  Holds env (.enum enumSubAcctType) (found es [] "SUBACCTSEC") v.SubAcctSec ∧
  Holds env .amount (found es [] "OLDUNITS") v.OldUnits ∧
  Holds env .amount (found es [] "NEWUNITS") v.NewUnits ∧
  Holds env .int (found es [] "NUMERATOR") v.Numerator ∧
  Holds env .int (found es [] "DENOMINATOR") v.Denominator ∧
  CurrencyIs env (found es [] "CURRENCY") v.Currency ∧
  CurrencyIs env (found es [] "ORIGCURRENCY") v.OrigCurrency ∧
  Holds env .amount (found es [] "FRACCASH") v.FracCash ∧
  Holds env (.enum enumSubAcctType) (found es [] "SUBACCTFUND") v.SubAcctFund ∧
  Holds env (.enum enumInv401kSource) (found es [] "INV401KSOURCE") v.Inv401kSource

/-- invstmt.go 504-517 -/
def TransferIs (env : Env) (es : List (Str × List Node)) (v : Ofx.Transfer) : Prop :=
  Called "TRANSFER" es ∧
  InvTranIs env (found es [] "INVTRAN") v.InvTran ∧
  SecurityIDIs env (found es [] "SECID") v.SecID ∧
  Holds env (.enum enumSubAcctType) (found es [] "SUBACCTSEC") v.SubAcctSec ∧
  Holds env .amount (found es [] "UNITS") v.Units ∧
  Holds env (.enum enumTferAction) (found es [] "TFERACTION") v.TferAction ∧
  Holds env (.enum enumPosType) (found es [] "POSTYPE") v.PosType ∧
  InvAcctIs env (found es [] "INVACCTFROM") v.InvAcctFrom ∧
  Holds env .amount (found es [] "AVGCOSTBASIS") v.AvgCostBasis ∧
  Holds env .amount (found es [] "UNITPRICE") v.UnitPrice ∧
  Maybe (Holds env .date) (found es [] "DTPURCHASE") v.DtPurchase ∧
  Holds env (.enum enumInv401kSource) (found es [] "INV401KSOURCE") v.Inv401kSource

/-- invstmt.go 538-542 -/
def InvBankTransactionIs (env : Env) (es : List (Str × List Node)) (v : Ofx.InvBankTransaction) : Prop :=
  Called "INVBANKTRAN" es ∧
  Each (TransactionIs env) (found es [] "STMTTRN") v.Transactions ∧
  Holds env (.enum enumSubAcctType) (found es [] "SUBACCTFUND") v.SubAcctFund

/-- The element is this InvTransaction. -/
def InvTransactionIs (env : Env) (e : Str × List Node) : Ofx.InvTransaction → Prop
  | .buyDebt v => e.1 = "BUYDEBT".toList ∧ BuyDebtIs env [e] v
  | .buyMF v => e.1 = "BUYMF".toList ∧ BuyMFIs env [e] v
  | .buyOpt v => e.1 = "BUYOPT".toList ∧ BuyOptIs env [e] v
  | .buyOther v => e.1 = "BUYOTHER".toList ∧ BuyOtherIs env [e] v
  | .buyStock v => e.1 = "BUYSTOCK".toList ∧ BuyStockIs env [e] v
  | .closureOpt v => e.1 = "CLOSUREOPT".toList ∧ ClosureOptIs env [e] v
  | .income v => e.1 = "INCOME".toList ∧ IncomeIs env [e] v
  | .invExpense v => e.1 = "INVEXPENSE".toList ∧ InvExpenseIs env [e] v
  | .jrnlFund v => e.1 = "JRNLFUND".toList ∧ JrnlFundIs env [e] v
  | .jrnlSec v => e.1 = "JRNLSEC".toList ∧ JrnlSecIs env [e] v
  | .marginInterest v => e.1 = "MARGININTEREST".toList ∧ MarginInterestIs env [e] v
  | .reinvest v => e.1 = "REINVEST".toList ∧ ReinvestIs env [e] v
  | .retOfCap v => e.1 = "RETOFCAP".toList ∧ RetOfCapIs env [e] v
  | .sellDebt v => e.1 = "SELLDEBT".toList ∧ SellDebtIs env [e] v
  | .sellMF v => e.1 = "SELLMF".toList ∧ SellMFIs env [e] v
  | .sellOpt v => e.1 = "SELLOPT".toList ∧ SellOptIs env [e] v
  | .sellOther v => e.1 = "SELLOTHER".toList ∧ SellOtherIs env [e] v
  | .sellStock v => e.1 = "SELLSTOCK".toList ∧ SellStockIs env [e] v
  | .split v => e.1 = "SPLIT".toList ∧ SplitIs env [e] v
  | .transfer v => e.1 = "TRANSFER".toList ∧ TransferIs env [e] v

/-- The names of the elements that are a InvTransaction. -/
def namesInvTransaction : List String := ["BUYDEBT", "BUYMF", "BUYOPT", "BUYOTHER", "BUYSTOCK", "CLOSUREOPT", "INCOME", "INVEXPENSE", "JRNLFUND", "JRNLSEC", "MARGININTEREST", "REINVEST", "RETOFCAP", "SELLDEBT", "SELLMF", "SELLOPT", "SELLOTHER", "SELLSTOCK", "SPLIT", "TRANSFER"]

/-- invstmt.go 548-554. -/
def InvTranListIs (env : Env) (es : List (Str × List Node)) (v : Ofx.InvTranList) : Prop :=
  Holds env .date (found es [] "DTSTART") v.DtStart ∧
  Holds env .date (found es [] "DTEND") v.DtEnd ∧
  EachCalled namesInvTransaction (InvTransactionIs env) es v.InvTransactions ∧
  Each (InvBankTransactionIs env) (found es [] "INVBANKTRAN") v.BankTransactions ∧
  OnlyCalled (["DTSTART", "DTEND"] ++ namesInvTransaction ++ ["INVBANKTRAN"]) es

/-- invstmt.go 830-843 -/
def InvPositionIs (env : Env) (es : List (Str × List Node)) (v : Ofx.InvPosition) : Prop :=
  Called "INVPOS" es ∧
  SecurityIDIs env (found es [] "SECID") v.SecID ∧
  Holds env (.enum enumSubAcctType) (found es [] "HELDINACCT") v.HeldInAcct ∧
  Holds env (.enum enumPosType) (found es [] "POSTYPE") v.PosType ∧
  Holds env .amount (found es [] "UNITS") v.Units ∧
  Holds env .amount (found es [] "UNITPRICE") v.UnitPrice ∧
  Holds env .amount (found es [] "MKTVAL") v.MktVal ∧
  Holds env .amount (found es [] "AVGCOSTBASIS") v.AvgCostBasis ∧
  Holds env .date (found es [] "DTPRICEASOF") v.DtPriceAsOf ∧
  Maybe (CurrencyIs env) (found es [] "CURRENCY") v.Currency ∧
  Holds env .str (found es [] "MEMO") v.Memo ∧
  Holds env (.enum enumInv401kSource) (found es [] "INV401KSOURCE") v.Inv401kSource

/-- invstmt.go 852-855 -/
def DebtPositionIs (env : Env) (es : List (Str × List Node)) (v : Ofx.DebtPosition) : Prop :=
  Called "POSDEBT" es ∧
  InvPositionIs env (found es [] "INVPOS") v.InvPos

/-- invstmt.go 868-875 -/
def MFPositionIs (env : Env) (es : List (Str × List Node)) (v : Ofx.MFPosition) : Prop :=
  Called "POSMF" es ∧
  InvPositionIs env (found es [] "INVPOS") v.InvPos ∧
  Holds env .amount (found es [] "UNITSSTREET") v.UnitsStreet ∧
  Holds env .amount (found es [] "UNITSUSER") v.UnitsUser ∧
  Holds env .bool (found es [] "REINVDIV") v.ReinvDiv ∧
  Holds env .bool (found es [] "REINVCG") v.ReinvCG

/-- invstmt.go 888-892 -/
def OptPositionIs (env : Env) (es : List (Str × List Node)) (v : Ofx.OptPosition) : Prop :=
  Called "POSOPT" es ∧
  InvPositionIs env (found es [] "INVPOS") v.InvPos ∧
  Holds env (.enum enumSecured) (found es [] "SECURED") v.Secured

/-- invstmt.go 906-909 -/
def OtherPositionIs (env : Env) (es : List (Str × List Node)) (v : Ofx.OtherPosition) : Prop :=
  Called "POSOTHER" es ∧
  InvPositionIs env (found es [] "INVPOS") v.InvPos

/-- invstmt.go 922-928 -/
def StockPositionIs (env : Env) (es : List (Str × List Node)) (v : Ofx.StockPosition) : Prop :=
  Called "POSSTOCK" es ∧
  InvPositionIs env (found es [] "INVPOS") v.InvPos ∧
  Holds env .amount (found es [] "UNITSSTREET") v.UnitsStreet ∧
  Holds env .amount (found es [] "UNITSUSER") v.UnitsUser ∧
  Holds env .bool (found es [] "REINVDIV") v.ReinvDiv

/-- invstmt.go 1036-1043 -/
def InvBalanceIs (env : Env) (es : List (Str × List Node)) (v : Ofx.InvBalance) : Prop :=
  Called "INVBAL" es ∧
  Holds env .amount (found es [] "AVAILCASH") v.AvailCash ∧
  Holds env .amount (found es [] "MARGINBALANCE") v.MarginBalance ∧
  Holds env .amount (found es [] "SHORTBALANCE") v.ShortBalance ∧
  Holds env .amount (found es [] "BUYPOWER") v.BuyPower ∧
  Each (BalanceIs env) (found es ["BALLIST"] "BAL") v.BalList

/-- invstmt.go 1047-1063 -/
def OOIs (env : Env) (es : List (Str × List Node)) (v : Ofx.OO) : Prop :=
  Called "OO" es ∧
  Holds env .str (found es [] "FITID") v.FiTID ∧
  Holds env .str (found es [] "SRVRTID") v.SrvrTID ∧
  SecurityIDIs env (found es [] "SECID") v.SecID ∧
  Holds env .date (found es [] "DTPLACED") v.DtPlaced ∧
  Holds env .amount (found es [] "UNITS") v.Units ∧
  Holds env (.enum enumSubAcctType) (found es [] "SUBACCT") v.SubAcct ∧
  Holds env (.enum enumDuration) (found es [] "DURATION") v.Duration ∧
  Holds env (.enum enumRestriction) (found es [] "RESTRICTION") v.Restriction ∧
  Holds env .amount (found es [] "MINUNITS") v.MinUnits ∧
  Holds env .amount (found es [] "LIMITPRICE") v.LimitPrice ∧
  Holds env .amount (found es [] "STOPPRICE") v.StopPrice ∧
  Holds env .str (found es [] "MEMO") v.Memo ∧
  Maybe (CurrencyIs env) (found es [] "CURRENCY") v.Currency ∧
  Holds env (.enum enumInv401kSource) (found es [] "INV401KSOURCE") v.Inv401kSource

/-- invstmt.go 1071-1076 -/
def OOBuyDebtIs (env : Env) (es : List (Str × List Node)) (v : Ofx.OOBuyDebt) : Prop :=
  Called "OOBUYDEBT" es ∧
  OOIs env (found es [] "OO") v.OO ∧
  Holds env .bool (found es [] "AUCTION") v.Auction ∧
  Maybe (Holds env .date) (found es [] "DTAUCTION") v.DtAuction

/-- invstmt.go 1084-1089 -/
def OOBuyMFIs (env : Env) (es : List (Str × List Node)) (v : Ofx.OOBuyMF) : Prop :=
  Called "OOBUYMF" es ∧
  OOIs env (found es [] "OO") v.OO ∧
  Holds env (.enum enumBuyType) (found es [] "BUYTYPE") v.BuyType ∧
  Holds env (.enum enumUnitType) (found es [] "UNITTYPE") v.UnitType

/-- invstmt.go 1097-1101 -/
def OOBuyOptIs (env : Env) (es : List (Str × List Node)) (v : Ofx.OOBuyOpt) : Prop :=
  Called "OOBUYOPT" es ∧
  OOIs env (found es [] "OO") v.OO ∧
  Holds env (.enum enumOptBuyType) (found es [] "OPTBUYTYPE") v.OptBuyType

/-- invstmt.go 1110-1114 -/
def OOBuyOtherIs (env : Env) (es : List (Str × List Node)) (v : Ofx.OOBuyOther) : Prop :=
  Called "OOBUYOTHER" es ∧
  OOIs env (found es [] "OO") v.OO ∧
  Holds env (.enum enumUnitType) (found es [] "UNITTYPE") v.UnitType

/-- invstmt.go 1122-1126 -/
def OOBuyStockIs (env : Env) (es : List (Str × List Node)) (v : Ofx.OOBuyStock) : Prop :=
  Called "OOBUYSTOCK" es ∧
  OOIs env (found es [] "OO") v.OO ∧
  Holds env (.enum enumBuyType) (found es [] "BUYTYPE") v.BuyType

/-- invstmt.go 1134-1137 -/
def OOSellDebtIs (env : Env) (es : List (Str × List Node)) (v : Ofx.OOSellDebt) : Prop :=
  Called "OOSELLDEBT" es ∧
  OOIs env (found es [] "OO") v.OO

/-- invstmt.go 1145-1151 -/
def OOSellMFIs (env : Env) (es : List (Str × List Node)) (v : Ofx.OOSellMF) : Prop :=
  Called "OOSELLMF" es ∧
  OOIs env (found es [] "OO") v.OO ∧
  Holds env (.enum enumSellType) (found es [] "SELLTYPE") v.SellType ∧
  Holds env (.enum enumUnitType) (found es [] "UNITTYPE") v.UnitType ∧
  Holds env .bool (found es [] "SELLALL") v.SellAll

/-- invstmt.go 1159-1163 -/
def OOSellOptIs (env : Env) (es : List (Str × List Node)) (v : Ofx.OOSellOpt) : Prop :=
  Called "OOSELLOPT" es ∧
  OOIs env (found es [] "OO") v.OO ∧
  Holds env (.enum enumOptSellType) (found es [] "OPTSELLTYPE") v.OptSellType

/-- invstmt.go 1172-1176 -/
def OOSellOtherIs (env : Env) (es : List (Str × List Node)) (v : Ofx.OOSellOther) : Prop :=
  Called "OOSELLOTHER" es ∧
  OOIs env (found es [] "OO") v.OO ∧
  Holds env (.enum enumUnitType) (found es [] "UNITTYPE") v.UnitType

/-- invstmt.go 1184-1188 -/
def OOSellStockIs (env : Env) (es : List (Str × List Node)) (v : Ofx.OOSellStock) : Prop :=
  Called "OOSELLSTOCK" es ∧
  OOIs env (found es [] "OO") v.OO ∧
  Holds env (.enum enumSellType) (found es [] "SELLTYPE") v.SellType

/-- invstmt.go 1197-1203 -/
def OOSwitchMFIs (env : Env) (es : List (Str × List Node)) (v : Ofx.OOSwitchMF) : Prop :=
  Called "SWITCHMF" es ∧
  OOIs env (found es [] "OO") v.OO ∧
  SecurityIDIs env (found es [] "SECID") v.SecID ∧
  Holds env (.enum enumUnitType) (found es [] "UNITTYPE") v.UnitType ∧
  Holds env .bool (found es [] "SWITCHALL") v.SwitchAll

/-- invstmt.go 1364-1381 -/
def ContribSecurityIs (env : Env) (es : List (Str × List Node)) (v : Ofx.ContribSecurity) : Prop :=
  Called "CONTRIBSECURITY" es ∧
  SecurityIDIs env (found es [] "SECID") v.SecID ∧
  Holds env .amount (found es [] "PRETAXCONTRIBPCT") v.PreTaxContribPct ∧
  Holds env .amount (found es [] "PRETAXCONTRIBAMT") v.PreTaxContribAmt ∧
  Holds env .amount (found es [] "AFTERTAXCONTRIBPCT") v.AfterTaxContribPct ∧
  Holds env .amount (found es [] "AFTERTAXCONTRIBAMT") v.AfterTaxContribAmt ∧
  Holds env .amount (found es [] "MATCHCONTRIBPCT") v.MatchContribPct ∧
  Holds env .amount (found es [] "MATCHCONTRIBAMT") v.MatchContribAmt ∧
  Holds env .amount (found es [] "PROFITSHARINGCONTRIBPCT") v.ProfitSharingContribPct ∧
  Holds env .amount (found es [] "PROFITSHARINGCONTRIBAMT") v.ProfitSharingContribAmt ∧
  Holds env .amount (found es [] "ROLLOVERCONTRIBPCT") v.RolloverContribPct ∧
  Holds env .amount (found es [] "ROLLOVERCONTRIBAMT") v.RolloverContribAmt ∧
  Holds env .amount (found es [] "OTHERVESTPCT") v.OtherVestPct ∧
  Holds env .amount (found es [] "OTHERVESTAMT") v.OtherVestAmt ∧
  Holds env .amount (found es [] "OTHERNONVESTPCT") v.OtherNonVestPct ∧
  Holds env .amount (found es [] "OTHERNONVESTAMT") v.OtherNonVestAmt

/-- invstmt.go 1385-1389 -/
def VestInfoIs (env : Env) (es : List (Str × List Node)) (v : Ofx.VestInfo) : Prop :=
  Called "VESTINFO" es ∧
  Maybe (Holds env .date) (found es [] "VESTDATE") v.VestDate ∧
  Holds env .amount (found es [] "VESTPCT") v.VestPct

/-- invstmt.go 1392-1409 -/
def LoanInfoIs (env : Env) (es : List (Str × List Node)) (v : Ofx.LoanInfo) : Prop :=
  Called "VESTINFO" es ∧
  Holds env .str (found es [] "LOANID") v.LoanID ∧
  Holds env .str (found es [] "LOANDESC") v.LoanDesc ∧
  Holds env .amount (found es [] "INITIALLOANBAL") v.InitialLoanBal ∧
  Maybe (Holds env .date) (found es [] "LOANSTARTDATE") v.LoanStartDate ∧
  Holds env .amount (found es [] "CURRENTLOANBAL") v.CurrentLoanBal ∧
  Maybe (Holds env .date) (found es [] "DTASOF") v.DtAsOf ∧
  Holds env .amount (found es [] "LOANRATE") v.LoanRate ∧
  Holds env .amount (found es [] "LOANPMTAMT") v.LoanPmtAmt ∧
  Holds env (.enum enumLoanPmtFreq) (found es [] "LOANPMTFREQ") v.LoanPmtFreq ∧
  Holds env .int (found es [] "LOANPMTSINITIAL") v.LoanPmtsInitial ∧
  Holds env .int (found es [] "LOANPMTSREMAINING") v.LoanPmtsRemaining ∧
  Maybe (Holds env .date) (found es [] "LOANMATURITYDATE") v.LoanMaturityDate ∧
  Holds env .amount (found es [] "LOANTOTALPROJINTEREST") v.LoanTotalProjInterest ∧
  Holds env .amount (found es [] "LOANINTERESTTODATE") v.LoanInterestToDate ∧
  Maybe (Holds env .date) (found es [] "LOANNEXTPMTDATE") v.LoanExtPmtDate

/-- invstmt.go 1414-1424 -/
def Inv401KSummaryAggregateIs (env : Env) (es : List (Str × List Node)) (v : Ofx.Inv401KSummaryAggregate) : Prop :=
  v.XMLName = (es.getLast?.map (fun e => e.1)).getD [] ∧
  Holds env .amount (found es [] "PRETAX") v.PreTax ∧
  Holds env .amount (found es [] "AFTERTAX") v.AfterTax ∧
  Holds env .amount (found es [] "MATCH") v.Match ∧
  Holds env .amount (found es [] "PROFITSHARING") v.ProfitSharing ∧
  Holds env .amount (found es [] "ROLLOVER") v.Rollover ∧
  Holds env .amount (found es [] "OTHERVEST") v.OtherVest ∧
  Holds env .amount (found es [] "OTHERNONVEST") v.OtherNonVest ∧
  Holds env .amount (found es [] "TOTAL") v.Total

/-- invstmt.go 1428-1435 -/
def Inv401KSummaryPeriodIs (env : Env) (es : List (Str × List Node)) (v : Ofx.Inv401KSummaryPeriod) : Prop :=
  v.XMLName = (es.getLast?.map (fun e => e.1)).getD [] ∧
  Holds env .date (found es [] "DTSTART") v.DtStart ∧
  Holds env .date (found es [] "DTEND") v.DtEnd ∧
  Maybe (Inv401KSummaryAggregateIs env) (found es [] "CONTRIBUTIONS") v.Contributions ∧
  Maybe (Inv401KSummaryAggregateIs env) (found es [] "WITHDRAWLS") v.Withdrawls ∧
  Maybe (Inv401KSummaryAggregateIs env) (found es [] "EARNINGS") v.Earnings

/-- invstmt.go 1439-1463 -/
def Inv401KIs (env : Env) (es : List (Str × List Node)) (v : Ofx.Inv401K) : Prop :=
  Called "INV401K" es ∧
  Holds env .str (found es [] "EMPLOYERNAME") v.EmployerName ∧
  Holds env .str (found es [] "PLANID") v.PlanID ∧
  Maybe (Holds env .date) (found es [] "PLANJOINDATE") v.PlanJoinDate ∧
  Holds env .str (found es [] "EMPLOYERCONTACTINFO") v.EmployerContactInfo ∧
  Holds env .str (found es [] "BROKERCONTACTINFO") v.BrokerContactInfo ∧
  Holds env .amount (found es [] "DEFERPCTPRETAX") v.DeferPctPreTax ∧
  Holds env .amount (found es [] "DEFERPCTAFTERTAX") v.DeferPctAfterTax ∧
  Holds env .amount (found es ["MATCHINFO"] "MATCHPCT") v.MatchPct ∧
  Holds env .amount (found es ["MATCHINFO"] "MAXMATCHAMT") v.MaxMatchAmt ∧
  Holds env .amount (found es ["MATCHINFO"] "MAXMATCHPCT") v.MaxMatchPct ∧
  Maybe (Holds env .date) (found es ["MATCHINFO"] "STARTOFYEAR") v.StartOfYear ∧
  Holds env .amount (found es ["MATCHINFO"] "BASEMATCHAMT") v.BaseMatchAmt ∧
  Holds env .amount (found es ["MATCHINFO"] "BASEMATCHPCT") v.BaseMatchPct ∧
  Each (ContribSecurityIs env) (found es ["CONTRIBINTO"] "CONTRIBSECURITY") v.ContribInfo ∧
  Holds env .amount (found es [] "CURRENTVESTPCT") v.CurrentVestPct ∧
  Each (VestInfoIs env) (found es [] "VESTINFO") v.VestInfo ∧
  Each (LoanInfoIs env) (found es [] "LOANINFO") v.LoanInfo ∧
  Inv401KSummaryPeriodIs env (found es ["INV401KSUMMARY"] "YEARTODATE") v.YearToDateSummary ∧
  Maybe (Inv401KSummaryPeriodIs env) (found es ["INV401KSUMMARY"] "INCEPTODATE") v.InceptToDateSummary ∧
  Maybe (Inv401KSummaryPeriodIs env) (found es ["INV401KSUMMARY"] "PERIODTODATE") v.PeriodToDate

/-- invstmt.go 1467-1479 -/
def Inv401KBalIs (env : Env) (es : List (Str × List Node)) (v : Ofx.Inv401KBal) : Prop :=
  Called "INV401KBAL" es ∧
  Holds env .amount (found es [] "CASHBAL") v.CashBal ∧
  Holds env .amount (found es [] "PRETAX") v.PreTax ∧
  Holds env .amount (found es [] "AFTERTAX") v.AfterTax ∧
  Holds env .amount (found es [] "MATCH") v.Match ∧
  Holds env .amount (found es [] "PROFITSHARING") v.ProfitSharing ∧
  Holds env .amount (found es [] "ROLLOVER") v.Rollover ∧
  Holds env .amount (found es [] "OTHERVEST") v.OtherVest ∧
  Holds env .amount (found es [] "OTHERNONVEST") v.OtherNonVest ∧
  Holds env .amount (found es [] "TOTAL") v.Total ∧
  Each (BalanceIs env) (found es ["BALLIST"] "BAL") v.BalList

/-- The element is this Position. -/
def PositionIs (env : Env) (e : Str × List Node) : Ofx.Position → Prop
  | .debtPosition v => e.1 = "POSDEBT".toList ∧ DebtPositionIs env [e] v
  | .mfPosition v => e.1 = "POSMF".toList ∧ MFPositionIs env [e] v
  | .optPosition v => e.1 = "POSOPT".toList ∧ OptPositionIs env [e] v
  | .otherPosition v => e.1 = "POSOTHER".toList ∧ OtherPositionIs env [e] v
  | .stockPosition v => e.1 = "POSSTOCK".toList ∧ StockPositionIs env [e] v

/-- The names of the elements that are a Position. -/
def namesPosition : List String := ["POSDEBT", "POSMF", "POSOPT", "POSOTHER", "POSSTOCK"]

/-- invstmt.go 942. -/
def PositionListIs (env : Env) (es : List (Str × List Node)) (v : Ofx.PositionList) : Prop :=
  EachCalled namesPosition (PositionIs env) es v ∧ OnlyCalled namesPosition es

/-- The element is this OpenOrder. -/
def OpenOrderIs (env : Env) (e : Str × List Node) : Ofx.OpenOrder → Prop
  | .ooBuyDebt v => e.1 = "OOBUYDEBT".toList ∧ OOBuyDebtIs env [e] v
  | .ooBuyMF v => e.1 = "OOBUYMF".toList ∧ OOBuyMFIs env [e] v
  | .ooBuyOpt v => e.1 = "OOBUYOPT".toList ∧ OOBuyOptIs env [e] v
  | .ooBuyOther v => e.1 = "OOBUYOTHER".toList ∧ OOBuyOtherIs env [e] v
  | .ooBuyStock v => e.1 = "OOBUYSTOCK".toList ∧ OOBuyStockIs env [e] v
  | .ooSellDebt v => e.1 = "OOSELLDEBT".toList ∧ OOSellDebtIs env [e] v
  | .ooSellMF v => e.1 = "OOSELLMF".toList ∧ OOSellMFIs env [e] v
  | .ooSellOpt v => e.1 = "OOSELLOPT".toList ∧ OOSellOptIs env [e] v
  | .ooSellOther v => e.1 = "OOSELLOTHER".toList ∧ OOSellOtherIs env [e] v
  | .ooSellStock v => e.1 = "OOSELLSTOCK".toList ∧ OOSellStockIs env [e] v
  | .ooSwitchMF v => e.1 = "SWITCHMF".toList ∧ OOSwitchMFIs env [e] v

/-- The names of the elements that are a OpenOrder. -/
def namesOpenOrder : List String := ["OOBUYDEBT", "OOBUYMF", "OOBUYOPT", "OOBUYOTHER", "OOBUYSTOCK", "OOSELLDEBT", "OOSELLMF", "OOSELLOPT", "OOSELLOTHER", "OOSELLSTOCK", "SWITCHMF"]

/-- invstmt.go 1211. -/
def OOListIs (env : Env) (es : List (Str × List Node)) (v : Ofx.OOList) : Prop :=
  EachCalled namesOpenOrder (OpenOrderIs env) es v ∧ OnlyCalled namesOpenOrder es

/-- invstmt.go 1485-1501 -/
def InvStatementResponseIs (env : Env) (es : List (Str × List Node)) (v : Ofx.InvStatementResponse) : Prop :=
  Called "INVSTMTTRNRS" es ∧
  Holds env .uid (found es [] "TRNUID") v.TrnUID ∧
  StatusIs env (found es [] "STATUS") v.Status ∧
  Holds env .str (found es [] "CLTCOOKIE") v.CltCookie ∧
  Holds env .date (found es ["INVSTMTRS"] "DTASOF") v.DtAsOf ∧
  Holds env .curr (found es ["INVSTMTRS"] "CURDEF") v.CurDef ∧
  InvAcctIs env (found es ["INVSTMTRS"] "INVACCTFROM") v.InvAcctFrom ∧
  Maybe (InvTranListIs env) (found es ["INVSTMTRS"] "INVTRANLIST") v.InvTranList ∧
  PositionListIs env (found es ["INVSTMTRS"] "INVPOSLIST") v.InvPosList ∧
  Maybe (InvBalanceIs env) (found es ["INVSTMTRS"] "INVBAL") v.InvBal ∧
  OOListIs env (found es ["INVSTMTRS"] "INVOOLIST") v.InvOOList ∧
  Holds env .str (found es ["INVSTMTRS"] "MKTGINFO") v.MktgInfo ∧
  Maybe (Inv401KIs env) (found es ["INVSTMTRS"] "INV401K") v.Inv401K ∧
  Maybe (Inv401KBalIs env) (found es ["INVSTMTRS"] "INV401KBAL") v.Inv401KBal

end Ofx.Spec
