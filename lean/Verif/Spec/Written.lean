import Verif.Spec.Meaning
/-
GENERATED by tools/gen_written.py from the struct declarations of /repo -- do not edit.

The elements written for each structure, in order: which are always there, and which are left
out when.  The texts are those of C01 to C17.
-/
namespace Ofx.Spec
open Ofx

/-- An element that holds the text of a value; none for undefined values of enumerations. -/
def always (l : Leaf) (name : String) (v : l.Den) : List Node :=
  match l.print v with
  | some text => [.elem name.toList (if text = [] then [] else [.text text])]
  | none => []

/-- Nothing if `p` holds. -/
def omitted (p : Prop) [Decidable p] (ns : List Node) : List Node := if p then [] else ns

/-- Nothing without a value. -/
def ifAny {α : Type} (f : α → List Node) : Option α → List Node
  | none => []
  | some v => f v

/-- An element that holds these elements. -/
def element (name : String) (content : List Node) : List Node := [.elem name.toList content]

/-- As `element`, for structures with an XMLName without a tag: the name set there, if any. -/
def named (own : Str) (name : String) (content : List Node) : List Node :=
  [.elem (if own = [] then name.toList else own) content]

/-- common.go 264-269 -/
def statusContent (v : Ofx.Status) : List Node := List.flatten [
  always .int "CODE" v.Code,
  always .str "SEVERITY" v.Severity,
  omitted (v.Message = []) (always .str "MESSAGE" v.Message)]

/-- common.go 308-315 -/
def bankAcctContent (v : Ofx.BankAcct) : List Node := List.flatten [
  always .str "BANKID" v.BankID,
  omitted (v.BranchID = []) (always .str "BRANCHID" v.BranchID),
  always .str "ACCTID" v.AcctID,
  always (.enum enumAcctType) "ACCTTYPE" v.AcctType,
  omitted (v.AcctKey = []) (always .str "ACCTKEY" v.AcctKey)]

/-- common.go 332-336 -/
def cCAcctContent (v : Ofx.CCAcct) : List Node := List.flatten [
  always .str "ACCTID" v.AcctID,
  omitted (v.AcctKey = []) (always .str "ACCTKEY" v.AcctKey)]

/-- common.go 347-351 -/
def invAcctContent (v : Ofx.InvAcct) : List Node := List.flatten [
  always .str "BROKERID" v.BrokerID,
  always .str "ACCTID" v.AcctID]

/-- common.go 358-362 -/
def currencyContent (v : Ofx.Currency) : List Node := List.flatten [
  always .amount "CURRATE" v.CurRate,
  always .curr "CURSYM" v.CurSym]

/-- bank.go 12-24 -/
def statementRequestContent (v : Ofx.StatementRequest) : List Node := List.flatten [
  always .uid "TRNUID" v.TrnUID,
  omitted (v.CltCookie = []) (always .str "CLTCOOKIE" v.CltCookie),
  omitted (v.TAN = []) (always .str "TAN" v.TAN),
  element "STMTRQ" <| List.flatten [
    named v.BankAcctFrom.XMLName "BANKACCTFROM" (bankAcctContent v.BankAcctFrom),
    element "INCTRAN" <| List.flatten [
      ifAny (fun x => always .date "DTSTART" x) v.DtStart,
      ifAny (fun x => always .date "DTEND" x) v.DtEnd,
      always .bool "INCLUDE" v.Include],
    omitted (v.IncludePending = false) (always .bool "INCLUDEPENDING" v.IncludePending),
    omitted (v.IncTranImg = false) (always .bool "INCTRANIMG" v.IncTranImg)]]

/-- bank.go 53-64 -/
def payeeContent (v : Ofx.Payee) : List Node := List.flatten [
  always .str "NAME" v.Name,
  always .str "ADDR1" v.Addr1,
  omitted (v.Addr2 = []) (always .str "ADDR2" v.Addr2),
  omitted (v.Addr3 = []) (always .str "ADDR3" v.Addr3),
  always .str "CITY" v.City,
  always .str "STATE" v.State,
  always .str "POSTALCODE" v.PostalCode,
  omitted (v.Country = []) (always .str "COUNTRY" v.Country),
  always .str "PHONE" v.Phone]

/-- bank.go 88-98 -/
def imageDataContent (v : Ofx.ImageData) : List Node := List.flatten [
  always (.enum enumImageType) "IMAGETYPE" v.ImageType,
  always .str "IMAGEREF" v.ImageRef,
  always (.enum enumImageRefType) "IMAGEREFTYPE" v.ImageRefType,
  omitted (v.ImageDelay = 0) (always .int "IMAGEDELAY" v.ImageDelay),
  ifAny (fun x => always .date "DTIMAGEAVAIL" x) v.DtImageAvail,
  omitted (v.ImageTTL = 0) (always .int "IMAGETTL" v.ImageTTL),
  omitted (v.CheckSup = 0) (always (.enum enumCheckSup) "CHECKSUP" v.CheckSup)]

/-- bank.go 104-132 -/
def transactionContent (v : Ofx.Transaction) : List Node := List.flatten [
  always (.enum enumTrnType) "TRNTYPE" v.TrnType,
  always .date "DTPOSTED" v.DtPosted,
  ifAny (fun x => always .date "DTUSER" x) v.DtUser,
  ifAny (fun x => always .date "DTAVAIL" x) v.DtAvail,
  always .amount "TRNAMT" v.TrnAmt,
  always .str "FITID" v.FiTID,
  omitted (v.CorrectFiTID = []) (always .str "CORRECTFITID" v.CorrectFiTID),
  omitted (v.CorrectAction = 0) (always (.enum enumCorrectAction) "CORRECTACTION" v.CorrectAction),
  omitted (v.SrvrTID = []) (always .str "SRVRTID" v.SrvrTID),
  omitted (v.CheckNum = []) (always .str "CHECKNUM" v.CheckNum),
  omitted (v.RefNum = []) (always .str "REFNUM" v.RefNum),
  omitted (v.SIC = 0) (always .int "SIC" v.SIC),
  omitted (v.PayeeID = []) (always .str "PAYEEID" v.PayeeID),
  omitted (v.Name = []) (always .str "NAME" v.Name),
  ifAny (fun x => element "PAYEE" (payeeContent x)) v.Payee,
  omitted (v.ExtdName = []) (always .str "EXTDNAME" v.ExtdName),
  ifAny (fun x => named x.XMLName "BANKACCTTO" (bankAcctContent x)) v.BankAcctTo,
  ifAny (fun x => named x.XMLName "CCACCTTO" (cCAcctContent x)) v.CCAcctTo,
  omitted (v.Memo = []) (always .str "MEMO" v.Memo),
  v.ImageData.flatMap (fun x => element "IMAGEDATA" (imageDataContent x)),
  ifAny (fun x => named x.XMLName "CURRENCY" (currencyContent x)) v.Currency,
  ifAny (fun x => named x.XMLName "ORIGCURRENCY" (currencyContent x)) v.OrigCurrency,
  omitted (v.Inv401kSource = 0) (always (.enum enumInv401kSource) "INV401KSOURCE" v.Inv401kSource)]

/-- bank.go 184-189 -/
def transactionListContent (v : Ofx.TransactionList) : List Node := List.flatten [
  always .date "DTSTART" v.DtStart,
  always .date "DTEND" v.DtEnd,
  v.Transactions.flatMap (fun x => element "STMTTRN" (transactionContent x))]

/-- bank.go 211-226 -/
def pendingTransactionContent (v : Ofx.PendingTransaction) : List Node := List.flatten [
  always (.enum enumTrnType) "TRNTYPE" v.TrnType,
  always .date "DTTRAN" v.DtTran,
  ifAny (fun x => always .date "DTEXPIRE" x) v.DtExpire,
  always .amount "TRNAMT" v.TrnAmt,
  omitted (v.RefNum = []) (always .str "REFNUM" v.RefNum),
  omitted (v.Name = []) (always .str "NAME" v.Name),
  omitted (v.ExtdName = []) (always .str "EXTDNAME" v.ExtdName),
  omitted (v.Memo = []) (always .str "MEMO" v.Memo),
  v.ImageData.flatMap (fun x => element "IMAGEDATA" (imageDataContent x)),
  named v.Currency.XMLName "CURRENCY" (currencyContent v.Currency),
  named v.OrigCurrency.XMLName "ORIGCURRENCY" (currencyContent v.OrigCurrency)]

/-- bank.go 248-252 -/
def pendingTransactionListContent (v : Ofx.PendingTransactionList) : List Node := List.flatten [
  always .date "DTASOF" v.DtAsOf,
  v.Transactions.flatMap (fun x => element "STMTTRNP" (pendingTransactionContent x))]

/-- bank.go 270-284 -/
def balanceContent (v : Ofx.Balance) : List Node := List.flatten [
  always .str "NAME" v.Name,
  always .str "DESC" v.Desc,
  always (.enum enumBalType) "BALTYPE" v.BalType,
  always .amount "VALUE" v.Value,
  ifAny (fun x => always .date "DTASOF" x) v.DtAsOf,
  ifAny (fun x => named x.XMLName "CURRENCY" (currencyContent x)) v.Currency]

/-- bank.go 300-318 -/
def statementResponseContent (v : Ofx.StatementResponse) : List Node := List.flatten [
  always .uid "TRNUID" v.TrnUID,
  element "STATUS" (statusContent v.Status),
  omitted (v.CltCookie = []) (always .str "CLTCOOKIE" v.CltCookie),
  element "STMTRS" <| List.flatten [
    always .curr "CURDEF" v.CurDef,
    named v.BankAcctFrom.XMLName "BANKACCTFROM" (bankAcctContent v.BankAcctFrom),
    ifAny (fun x => element "BANKTRANLIST" (transactionListContent x)) v.BankTranList,
    ifAny (fun x => element "BANKTRANLISTP" (pendingTransactionListContent x)) v.BankTranListP,
    element "LEDGERBAL" <| List.flatten [
      always .amount "BALAMT" v.BalAmt,
      always .date "DTASOF" v.DtAsOf],
    omitted (v.AvailBalAmt = none ∧ v.AvailDtAsOf = none) <| element "AVAILBAL" <| List.flatten [
      ifAny (fun x => always .amount "BALAMT" x) v.AvailBalAmt,
      ifAny (fun x => always .date "DTASOF" x) v.AvailDtAsOf],
    ifAny (fun x => always .amount "CASHADVBALAMT" x) v.CashAdvBalAmt,
    ifAny (fun x => always .amount "INTRATE" x) v.IntRate,
    element "BALLIST" <| List.flatten [
      v.BalList.flatMap (fun x => element "BAL" (balanceContent x))],
    omitted (v.MktgInfo = []) (always .str "MKTGINFO" v.MktgInfo)]]

/-- creditcard.go 10-22 -/
def cCStatementRequestContent (v : Ofx.CCStatementRequest) : List Node := List.flatten [
  always .uid "TRNUID" v.TrnUID,
  omitted (v.CltCookie = []) (always .str "CLTCOOKIE" v.CltCookie),
  omitted (v.TAN = []) (always .str "TAN" v.TAN),
  element "CCSTMTRQ" <| List.flatten [
    named v.CCAcctFrom.XMLName "CCACCTFROM" (cCAcctContent v.CCAcctFrom),
    element "INCTRAN" <| List.flatten [
      ifAny (fun x => always .date "DTSTART" x) v.DtStart,
      ifAny (fun x => always .date "DTEND" x) v.DtEnd,
      always .bool "INCLUDE" v.Include],
    omitted (v.IncludePending = false) (always .bool "INCLUDEPENDING" v.IncludePending),
    omitted (v.IncTranImg = false) (always .bool "INCTRANIMG" v.IncTranImg)]]

/-- creditcard.go 48-71 -/
def cCStatementResponseContent (v : Ofx.CCStatementResponse) : List Node := List.flatten [
  always .uid "TRNUID" v.TrnUID,
  element "STATUS" (statusContent v.Status),
  omitted (v.CltCookie = []) (always .str "CLTCOOKIE" v.CltCookie),
  element "CCSTMTRS" <| List.flatten [
    always .curr "CURDEF" v.CurDef,
    named v.CCAcctFrom.XMLName "CCACCTFROM" (cCAcctContent v.CCAcctFrom),
    ifAny (fun x => element "BANKTRANLIST" (transactionListContent x)) v.BankTranList,
    element "LEDGERBAL" <| List.flatten [
      always .amount "BALAMT" v.BalAmt,
      always .date "DTASOF" v.DtAsOf],
    omitted (v.AvailBalAmt = none ∧ v.AvailDtAsOf = none) <| element "AVAILBAL" <| List.flatten [
      ifAny (fun x => always .amount "BALAMT" x) v.AvailBalAmt,
      ifAny (fun x => always .date "DTASOF" x) v.AvailDtAsOf],
    always .amount "CASHADVBALAMT" v.CashAdvBalAmt,
    always .amount "INTRATEPURCH" v.IntRatePurch,
    always .amount "INTRATECASH" v.IntRateCash,
    always .amount "INTRATEXFER" v.IntRateXfer,
    element "REWARDINFO" <| List.flatten [
      omitted (v.RewardName = []) (always .str "NAME" v.RewardName),
      always .amount "REWARDBAL" v.RewardBal,
      always .amount "REWARDEARNED" v.RewardEarned],
    element "BALLIST" <| List.flatten [
      v.BalList.flatMap (fun x => element "BAL" (balanceContent x))],
    omitted (v.MktgInfo = []) (always .str "MKTGINFO" v.MktgInfo)]]

/-- signon.go 11-24 -/
def signonRequestContent (v : Ofx.SignonRequest) : List Node := List.flatten [
  always .date "DTCLIENT" v.DtClient,
  always .str "USERID" v.UserID,
  omitted (v.UserPass = []) (always .str "USERPASS" v.UserPass),
  omitted (v.UserKey = []) (always .str "USERKEY" v.UserKey),
  omitted (v.GenUserKey = false) (always .bool "GENUSERKEY" v.GenUserKey),
  always .str "LANGUAGE" v.Language,
  element "FI" <| List.flatten [
    always .str "ORG" v.Org,
    always .str "FID" v.Fid],
  always .str "APPID" v.AppID,
  always .str "APPVER" v.AppVer,
  omitted (v.ClientUID = []) (always .uid "CLIENTUID" v.ClientUID)]

/-- signon.go 62-75 -/
def signonResponseContent (v : Ofx.SignonResponse) : List Node := List.flatten [
  element "STATUS" (statusContent v.Status),
  always .date "DTSERVER" v.DtServer,
  omitted (v.UserKey = []) (always .str "USERKEY" v.UserKey),
  ifAny (fun x => always .date "TSKEYEXPIRE" x) v.TsKeyExpire,
  always .str "LANGUAGE" v.Language,
  ifAny (fun x => always .date "DTPROFUP" x) v.DtProfUp,
  ifAny (fun x => always .date "DTACCTUP" x) v.DtAcctUp,
  element "FI" <| List.flatten [
    always .str "ORG" v.Org,
    always .str "FID" v.Fid],
  omitted (v.SessCookie = []) (always .str "SESSCOOKIE" v.SessCookie),
  omitted (v.AccessKey = []) (always .str "ACCESSKEY" v.AccessKey)]

/-- signup.go 10-17 -/
def acctInfoRequestContent (v : Ofx.AcctInfoRequest) : List Node := List.flatten [
  always .uid "TRNUID" v.TrnUID,
  omitted (v.CltCookie = []) (always .str "CLTCOOKIE" v.CltCookie),
  omitted (v.TAN = []) (always .str "TAN" v.TAN),
  element "ACCTINFORQ" <| List.flatten [
    always .date "DTACCTUP" v.DtAcctUp]]

/-- signup.go 41-57 -/
def holderInfoContent (v : Ofx.HolderInfo) : List Node := List.flatten [
  always .str "FIRSTNAME" v.FirstName,
  omitted (v.MiddleName = []) (always .str "MIDDLENAME" v.MiddleName),
  always .str "LASTNAME" v.LastName,
  always .str "ADDR1" v.Addr1,
  omitted (v.Addr2 = []) (always .str "ADDR2" v.Addr2),
  omitted (v.Addr3 = []) (always .str "ADDR3" v.Addr3),
  always .str "CITY" v.City,
  always .str "STATE" v.State,
  always .str "POSTALCODE" v.PostalCode,
  omitted (v.Country = []) (always .str "COUNTRY" v.Country),
  omitted (v.DayPhone = []) (always .str "DAYPHONE" v.DayPhone),
  omitted (v.EvePhone = []) (always .str "EVEPHONE" v.EvePhone),
  omitted (v.Email = []) (always .str "EMAIL" v.Email),
  omitted (v.HolderType = 0) (always (.enum enumHolderType) "HOLDERTYPE" v.HolderType)]

/-- signup.go 62-74 -/
def bankAcctInfoContent (v : Ofx.BankAcctInfo) : List Node := List.flatten [
  named v.BankAcctFrom.XMLName "BANKACCTFROM" (bankAcctContent v.BankAcctFrom),
  always .bool "SUPTXDL" v.SupTxDl,
  always .bool "XFERSRC" v.XferSrc,
  always .bool "XFERDEST" v.XferDest,
  always .date "MATURITYDATE" v.MaturityDate,
  always .amount "MATURITYAMOUNT" v.MaturityAmt,
  always .amount "MINBALREQ" v.MinBalReq,
  omitted (v.AcctClassification = 0) (always (.enum enumAcctClassification) "ACCTCLASSIFICATION" v.AcctClassification),
  always .amount "OVERDRAFTLIMIT" v.OverdraftLimit,
  always (.enum enumSvcStatus) "SVCSTATUS" v.SvcStatus]

/-- signup.go 84-92 -/
def cCAcctInfoContent (v : Ofx.CCAcctInfo) : List Node := List.flatten [
  named v.CCAcctFrom.XMLName "CCACCTFROM" (cCAcctContent v.CCAcctFrom),
  always .bool "SUPTXDL" v.SupTxDl,
  always .bool "XFERSRC" v.XferSrc,
  always .bool "XFERDEST" v.XferDest,
  omitted (v.AcctClassification = 0) (always (.enum enumAcctClassification) "ACCTCLASSIFICATION" v.AcctClassification),
  always (.enum enumSvcStatus) "SVCSTATUS" v.SvcStatus]

/-- signup.go 102-110 -/
def invAcctInfoContent (v : Ofx.InvAcctInfo) : List Node := List.flatten [
  named v.InvAcctFrom.XMLName "INVACCTFROM" (invAcctContent v.InvAcctFrom),
  always (.enum enumUsProductType) "USPRODUCTTYPE" v.UsProductType,
  always .bool "CHECKING" v.Checking,
  always (.enum enumSvcStatus) "SVCSTATUS" v.SvcStatus,
  omitted (v.InvAcctType = 0) (always (.enum enumHolderType) "INVACCTTYPE" v.InvAcctType),
  omitted (v.OptionLevel = []) (always .str "OPTIONLEVEL" v.OptionLevel)]

/-- signup.go 120-134 -/
def acctInfoContent (v : Ofx.AcctInfo) : List Node := List.flatten [
  omitted (v.Name = []) (always .str "NAME" v.Name),
  omitted (v.Desc = []) (always .str "DESC" v.Desc),
  omitted (v.Phone = []) (always .str "PHONE" v.Phone),
  element "HOLDERINFO" <| List.flatten [
    named v.PrimaryHolder.XMLName "PRIMARYHOLDER" (holderInfoContent v.PrimaryHolder),
    named v.SecondaryHolder.XMLName "SECONDARYHOLDER" (holderInfoContent v.SecondaryHolder)],
  ifAny (fun x => element "BANKACCTINFO" (bankAcctInfoContent x)) v.BankAcctInfo,
  ifAny (fun x => element "CCACCTINFO" (cCAcctInfoContent x)) v.CCAcctInfo,
  ifAny (fun x => element "INVACCTINFO" (invAcctInfoContent x)) v.InvAcctInfo]

/-- signup.go 138-146 -/
def acctInfoResponseContent (v : Ofx.AcctInfoResponse) : List Node := List.flatten [
  always .uid "TRNUID" v.TrnUID,
  element "STATUS" (statusContent v.Status),
  omitted (v.CltCookie = []) (always .str "CLTCOOKIE" v.CltCookie),
  element "ACCTINFORS" <| List.flatten [
    always .date "DTACCTUP" v.DtAcctUp,
    v.AcctInfo.flatMap (fun x => element "ACCTINFO" (acctInfoContent x))]]

/-- profile.go 12-20 -/
def profileRequestContent (v : Ofx.ProfileRequest) : List Node := List.flatten [
  always .uid "TRNUID" v.TrnUID,
  omitted (v.CltCookie = []) (always .str "CLTCOOKIE" v.CltCookie),
  omitted (v.TAN = []) (always .str "TAN" v.TAN),
  element "PROFRQ" <| List.flatten [
    always .str "CLIENTROUTING" v.ClientRouting,
    always .date "DTPROFUP" v.DtProfUp]]

/-- profile.go 48-68 -/
def signonInfoContent (v : Ofx.SignonInfo) : List Node := List.flatten [
  always .str "SIGNONREALM" v.SignonRealm,
  always .int "MIN" v.Min,
  always .int "MAX" v.Max,
  always (.enum enumCharType) "CHARTYPE" v.CharType,
  always .bool "CASESEN" v.CaseSen,
  always .bool "SPECIAL" v.Special,
  always .bool "SPACES" v.Spaces,
  always .bool "PINCH" v.PinCh,
  always .bool "CHGPINFIRST" v.ChgPinFirst,
  omitted (v.UserCred1Label = []) (always .str "USERCRED1LABEL" v.UserCred1Label),
  omitted (v.UserCred2Label = []) (always .str "USERCRED2LABEL" v.UserCred2Label),
  omitted (v.ClientUIDReq = false) (always .bool "CLIENTUIDREQ" v.ClientUIDReq),
  omitted (v.AuthTokenFirst = false) (always .bool "AUTHTOKENFIRST" v.AuthTokenFirst),
  omitted (v.AuthTokenLabel = []) (always .str "AUTHTOKENLABEL" v.AuthTokenLabel),
  omitted (v.AuthTokenInfoURL = []) (always .str "AUTHTOKENINFOURL" v.AuthTokenInfoURL),
  omitted (v.MFAChallengeSupt = false) (always .bool "MFACHALLENGESUPT" v.MFAChallengeSupt),
  omitted (v.MFAChallengeFIRST = false) (always .bool "MFACHALLENGEFIRST" v.MFAChallengeFIRST),
  omitted (v.AccessTokenReq = false) (always .bool "ACCESSTOKENREQ" v.AccessTokenReq)]

/-- profile.go 72-86 -/
def messageSetContent (v : Ofx.MessageSet) : List Node := List.flatten [
  element "MSGSETCORE" <| List.flatten [
    always .int "VER" v.Ver,
    always .str "URL" v.URL,
    always (.enum enumOfxSec) "OFXSEC" v.OfxSec,
    always .bool "TRANSPSEC" v.TranspSec,
    always .str "SIGNONREALM" v.SignonRealm,
    v.Language.flatMap (fun x => always .str "LANGUAGE" x),
    always (.enum enumSyncMode) "SYNCMODE" v.SyncMode,
    omitted (v.RefreshSupt = false) (always .bool "REFRESHSUPT" v.RefreshSupt),
    always .bool "RESPFILEER" v.RespFileER,
    always .str "SPNAME" v.SpName]]

/-- profile.go 136-152: the version 1 of a message set, in an element without the V1 in its name. -/
def messageSetXml (v : Ofx.MessageSet) : Node :=
  .elem (v.Name.take (v.Name.length - 2))
    [.elem v.Name (.elem "Name".toList (if v.Name = [] then [] else [.text v.Name]) :: messageSetContent v)]

/-- profile.go 164-186 -/
def profileResponseContent (v : Ofx.ProfileResponse) : List Node := List.flatten [
  always .uid "TRNUID" v.TrnUID,
  element "STATUS" (statusContent v.Status),
  omitted (v.CltCookie = []) (always .str "CLTCOOKIE" v.CltCookie),
  element "PROFRS" <| List.flatten [
    element "MSGSETLIST" (v.MessageSetList.map messageSetXml),
    element "SIGNONINFOLIST" <| List.flatten [
      v.SignonInfoList.flatMap (fun x => element "SIGNONINFO" (signonInfoContent x))],
    always .date "DTPROFUP" v.DtProfUp,
    always .str "FINAME" v.FiName,
    always .str "ADDR1" v.Addr1,
    omitted (v.Addr2 = []) (always .str "ADDR2" v.Addr2),
    omitted (v.Addr3 = []) (always .str "ADDR3" v.Addr3),
    always .str "CITY" v.City,
    always .str "STATE" v.State,
    always .str "POSTALCODE" v.PostalCode,
    always .str "COUNTRY" v.Country,
    omitted (v.CsPhone = []) (always .str "CSPHONE" v.CsPhone),
    omitted (v.TsPhone = []) (always .str "TSPHONE" v.TsPhone),
    omitted (v.FaxPhone = []) (always .str "FAXPHONE" v.FaxPhone),
    omitted (v.URL = []) (always .str "URL" v.URL),
    omitted (v.Email = []) (always .str "EMAIL" v.Email)]]

/-- seclist.go 10-14 -/
def securityIDContent (v : Ofx.SecurityID) : List Node := List.flatten [
  always .str "UNIQUEID" v.UniqueID,
  always .str "UNIQUEIDTYPE" v.UniqueIDType]

/-- seclist.go 19-25 -/
def securityRequestContent (v : Ofx.SecurityRequest) : List Node := List.flatten [
  ifAny (fun x => element "SECID" (securityIDContent x)) v.SecID,
  omitted (v.Ticker = []) (always .str "TICKER" v.Ticker),
  omitted (v.FiID = []) (always .str "FIID" v.FiID)]

/-- seclist.go 29-36 -/
def secListRequestContent (v : Ofx.SecListRequest) : List Node := List.flatten [
  always .uid "TRNUID" v.TrnUID,
  omitted (v.CltCookie = []) (always .str "CLTCOOKIE" v.CltCookie),
  omitted (v.TAN = []) (always .str "TAN" v.TAN),
  element "SECLISTRQ" <| List.flatten [
    v.Securities.flatMap (fun x => element "SECRQ" (securityRequestContent x))]]

/-- seclist.go 64-71 -/
def secListResponseContent (v : Ofx.SecListResponse) : List Node := List.flatten [
  always .uid "TRNUID" v.TrnUID,
  element "STATUS" (statusContent v.Status),
  omitted (v.CltCookie = []) (always .str "CLTCOOKIE" v.CltCookie)]

/-- seclist.go 102-113 -/
def secInfoContent (v : Ofx.SecInfo) : List Node := List.flatten [
  element "SECID" (securityIDContent v.SecID),
  always .str "SECNAME" v.SecName,
  omitted (v.Ticker = []) (always .str "TICKER" v.Ticker),
  omitted (v.FiID = []) (always .str "FIID" v.FiID),
  omitted (v.Rating = []) (always .str "RATING" v.Rating),
  always .amount "UNITPRICE" v.UnitPrice,
  ifAny (fun x => always .date "DTASOF" x) v.DtAsOf,
  ifAny (fun x => named x.XMLName "CURRENCY" (currencyContent x)) v.Currency,
  omitted (v.Memo = []) (always .str "MEMO" v.Memo)]

/-- seclist.go 116-133 -/
def debtInfoContent (v : Ofx.DebtInfo) : List Node := List.flatten [
  element "SECINFO" (secInfoContent v.SecInfo),
  always .amount "PARVALUE" v.ParValue,
  always (.enum enumDebtType) "DEBTTYPE" v.DebtType,
  omitted (v.DebtClass = 0) (always (.enum enumDebtClass) "DEBTCLASS" v.DebtClass),
  always .amount "COUPONRT" v.CouponRate,
  ifAny (fun x => always .date "DTCOUPON" x) v.DtCoupon,
  omitted (v.CouponFreq = 0) (always (.enum enumCouponFreq) "COUPONFREQ" v.CouponFreq),
  always .amount "CALLPRICE" v.CallPrice,
  always .amount "YIELDTOCALL" v.YieldToCall,
  ifAny (fun x => always .date "DTCALL" x) v.DtCall,
  always (.enum enumCallType) "CALLTYPE" v.CallType,
  always .amount "YIELDTOMAT" v.YieldToMat,
  ifAny (fun x => always .date "DTMAT" x) v.DtMat,
  omitted (v.AssetClass = 0) (always (.enum enumAssetClass) "ASSETCLASS" v.AssetClass),
  omitted (v.FiAssetClass = []) (always .str "FIASSETCLASS" v.FiAssetClass)]

/-- seclist.go 147-151 -/
def assetPortionContent (v : Ofx.AssetPortion) : List Node := List.flatten [
  always (.enum enumAssetClass) "ASSETCLASS" v.AssetClass,
  always .amount "PERCENT" v.Percent]

/-- seclist.go 156-160 -/
def fiAssetPortionContent (v : Ofx.FiAssetPortion) : List Node := List.flatten [
  omitted (v.FiAssetClass = []) (always .str "FIASSETCLASS" v.FiAssetClass),
  always .amount "PERCENT" v.Percent]

/-- seclist.go 163-171 -/
def mFInfoContent (v : Ofx.MFInfo) : List Node := List.flatten [
  element "SECINFO" (secInfoContent v.SecInfo),
  always (.enum enumMfType) "MFTYPE" v.MfType,
  always .amount "YIELD" v.Yield,
  ifAny (fun x => always .date "DTYIELDASOF" x) v.DtYieldAsOf,
  element "MFASSETCLASS" <| List.flatten [
    v.AssetClasses.flatMap (fun x => element "PORTION" (assetPortionContent x))],
  element "FIMFASSETCLASS" <| List.flatten [
    v.FiAssetClasses.flatMap (fun x => element "FIPORTION" (fiAssetPortionContent x))]]

/-- seclist.go 184-194 -/
def optInfoContent (v : Ofx.OptInfo) : List Node := List.flatten [
  element "SECINFO" (secInfoContent v.SecInfo),
  always (.enum enumOptType) "OPTTYPE" v.OptType,
  always .amount "STRIKEPRICE" v.StrikePrice,
  always .date "DTEXPIRE" v.DtExpire,
  always .int "SHPERCTRCT" v.ShPerCtrct,
  ifAny (fun x => element "SECID" (securityIDContent x)) v.SecID,
  omitted (v.AssetClass = 0) (always (.enum enumAssetClass) "ASSETCLASS" v.AssetClass),
  omitted (v.FiAssetClass = []) (always .str "FIASSETCLASS" v.FiAssetClass)]

/-- seclist.go 208-214 -/
def otherInfoContent (v : Ofx.OtherInfo) : List Node := List.flatten [
  element "SECINFO" (secInfoContent v.SecInfo),
  omitted (v.TypeDesc = []) (always .str "TYPEDESC" v.TypeDesc),
  omitted (v.AssetClass = 0) (always (.enum enumAssetClass) "ASSETCLASS" v.AssetClass),
  omitted (v.FiAssetClass = []) (always .str "FIASSETCLASS" v.FiAssetClass)]

/-- seclist.go 227-235 -/
def stockInfoContent (v : Ofx.StockInfo) : List Node := List.flatten [
  element "SECINFO" (secInfoContent v.SecInfo),
  omitted (v.StockType = 0) (always (.enum enumStockType) "STOCKTYPE" v.StockType),
  always .amount "YIELD" v.Yield,
  ifAny (fun x => always .date "DTYIELDASOF" x) v.DtYieldAsOf,
  omitted (v.AssetClass = 0) (always (.enum enumAssetClass) "ASSETCLASS" v.AssetClass),
  omitted (v.FiAssetClass = []) (always .str "FIASSETCLASS" v.FiAssetClass)]

/-- The element written for a Security. -/
def securityXml : Ofx.Security → List Node
  | .debtInfo v => element "DEBTINFO" (debtInfoContent v)
  | .mfInfo v => element "MFINFO" (mFInfoContent v)
  | .optInfo v => element "OPTINFO" (optInfoContent v)
  | .otherInfo v => element "OTHERINFO" (otherInfoContent v)
  | .stockInfo v => element "STOCKINFO" (stockInfoContent v)

/-- seclist.go 249-252 -/
def securityListContent (v : Ofx.SecurityList) : List Node :=
  v.Securities.flatMap securityXml

/-- invstmt.go 11-28 -/
def invStatementRequestContent (v : Ofx.InvStatementRequest) : List Node := List.flatten [
  always .uid "TRNUID" v.TrnUID,
  omitted (v.CltCookie = []) (always .str "CLTCOOKIE" v.CltCookie),
  omitted (v.TAN = []) (always .str "TAN" v.TAN),
  element "INVSTMTRQ" <| List.flatten [
    named v.InvAcctFrom.XMLName "INVACCTFROM" (invAcctContent v.InvAcctFrom),
    element "INCTRAN" <| List.flatten [
      ifAny (fun x => always .date "DTSTART" x) v.DtStart,
      ifAny (fun x => always .date "DTEND" x) v.DtEnd,
      always .bool "INCLUDE" v.Include],
    always .bool "INCOO" v.IncludeOO,
    element "INCPOS" <| List.flatten [
      ifAny (fun x => always .date "DTASOF" x) v.PosDtAsOf,
      always .bool "INCLUDE" v.IncludePos],
    always .bool "INCBAL" v.IncludeBalance,
    omitted (v.Include401K = false) (always .bool "INC401K" v.Include401K),
    omitted (v.Include401KBal = false) (always .bool "INC401KBAL" v.Include401KBal),
    omitted (v.IncludeTranImage = false) (always .bool "INCTRANIMAGE" v.IncludeTranImage)]]

/-- invstmt.go 54-62 -/
def invTranContent (v : Ofx.InvTran) : List Node := List.flatten [
  always .str "FITID" v.FiTID,
  omitted (v.SrvrTID = []) (always .str "SRVRTID" v.SrvrTID),
  always .date "DTTRADE" v.DtTrade,
  ifAny (fun x => always .date "DTSETTLE" x) v.DtSettle,
  omitted (v.ReversalFiTID = []) (always .str "REVERSALFITID" v.ReversalFiTID),
  omitted (v.Memo = []) (always .str "MEMO" v.Memo)]

/-- invstmt.go 66-91 -/
def invBuyContent (v : Ofx.InvBuy) : List Node := List.flatten [
  element "INVTRAN" (invTranContent v.InvTran),
  element "SECID" (securityIDContent v.SecID),
  always .amount "UNITS" v.Units,
  always .amount "UNITPRICE" v.UnitPrice,
  always .amount "MARKUP" v.Markup,
  always .amount "COMMISSION" v.Commission,
  always .amount "TAXES" v.Taxes,
  always .amount "FEES" v.Fees,
  always .amount "LOAD" v.Load,
  always .amount "TOTAL" v.Total,
  named v.Currency.XMLName "CURRENCY" (currencyContent v.Currency),
  named v.OrigCurrency.XMLName "ORIGCURRENCY" (currencyContent v.OrigCurrency),
  always (.enum enumSubAcctType) "SUBACCTSEC" v.SubAcctSec,
  always (.enum enumSubAcctType) "SUBACCTFUND" v.SubAcctFund,
  omitted (v.LoanID = []) (always .str "LOANID" v.LoanID),
  always .amount "LOANPRINCIPAL" v.LoanPrincipal,
  always .amount "LOANINTEREST" v.LoanInterest,
  omitted (v.Inv401kSource = 0) (always (.enum enumInv401kSource) "INV401KSOURCE" v.Inv401kSource),
  ifAny (fun x => always .date "DTPAYROLL" x) v.DtPayroll,
  omitted (v.PriorYearContrib = false) (always .bool "PRIORYEARCONTRIB" v.PriorYearContrib)]

/-- invstmt.go 95-120 -/
def invSellContent (v : Ofx.InvSell) : List Node := List.flatten [
  element "INVTRAN" (invTranContent v.InvTran),
  element "SECID" (securityIDContent v.SecID),
  always .amount "UNITS" v.Units,
  always .amount "UNITPRICE" v.UnitPrice,
  always .amount "MARKDOWN" v.Markdown,
  always .amount "COMMISSION" v.Commission,
  always .amount "TAXES" v.Taxes,
  always .amount "FEES" v.Fees,
  always .amount "LOAD" v.Load,
  always .amount "WITHHOLDING" v.Withholding,
  omitted (v.TaxExempt = false) (always .bool "TAXEXEMPT" v.TaxExempt),
  always .amount "TOTAL" v.Total,
  always .amount "GAIN" v.Gain,
  named v.Currency.XMLName "CURRENCY" (currencyContent v.Currency),
  named v.OrigCurrency.XMLName "ORIGCURRENCY" (currencyContent v.OrigCurrency),
  always (.enum enumSubAcctType) "SUBACCTSEC" v.SubAcctSec,
  always (.enum enumSubAcctType) "SUBACCTFUND" v.SubAcctFund,
  omitted (v.LoanID = []) (always .str "LOANID" v.LoanID),
  always .amount "STATEWITHHOLDING" v.StateWithholding,
  always .amount "PENALTY" v.Penalty,
  omitted (v.Inv401kSource = 0) (always (.enum enumInv401kSource) "INV401KSOURCE" v.Inv401kSource)]

/-- invstmt.go 123-127 -/
def buyDebtContent (v : Ofx.BuyDebt) : List Node := List.flatten [
  element "INVBUY" (invBuyContent v.InvBuy),
  always .amount "ACCRDINT" v.AccrdInt]

/-- invstmt.go 139-144 -/
def buyMFContent (v : Ofx.BuyMF) : List Node := List.flatten [
  element "INVBUY" (invBuyContent v.InvBuy),
  always (.enum enumBuyType) "BUYTYPE" v.BuyType,
  omitted (v.RelFiTID = []) (always .str "RELFITID" v.RelFiTID)]

/-- invstmt.go 156-161 -/
def buyOptContent (v : Ofx.BuyOpt) : List Node := List.flatten [
  element "INVBUY" (invBuyContent v.InvBuy),
  always (.enum enumOptBuyType) "OPTBUYTYPE" v.OptBuyType,
  always .int "SHPERCTRCT" v.ShPerCtrct]

/-- invstmt.go 174-177 -/
def buyOtherContent (v : Ofx.BuyOther) : List Node := List.flatten [
  element "INVBUY" (invBuyContent v.InvBuy)]

/-- invstmt.go 189-193 -/
def buyStockContent (v : Ofx.BuyStock) : List Node := List.flatten [
  element "INVBUY" (invBuyContent v.InvBuy),
  always (.enum enumBuyType) "BUYTYPE" v.BuyType]

/-- invstmt.go 205-215 -/
def closureOptContent (v : Ofx.ClosureOpt) : List Node := List.flatten [
  element "INVTRAN" (invTranContent v.InvTran),
  element "SECID" (securityIDContent v.SecID),
  always (.enum enumOptAction) "OPTACTION" v.OptAction,
  always .amount "UNITS" v.Units,
  always .int "SHPERCTRCT" v.ShPerCtrct,
  always (.enum enumSubAcctType) "SUBACCTSEC" v.SubAcctSec,
  omitted (v.RelFiTID = []) (always .str "RELFITID" v.RelFiTID),
  always .amount "GAIN" v.Gain]

/-- invstmt.go 228-241 -/
def incomeContent (v : Ofx.Income) : List Node := List.flatten [
  element "INVTRAN" (invTranContent v.InvTran),
  element "SECID" (securityIDContent v.SecID),
  always (.enum enumIncomeType) "INCOMETYPE" v.IncomeType,
  always .amount "TOTAL" v.Total,
  always (.enum enumSubAcctType) "SUBACCTSEC" v.SubAcctSec,
  always (.enum enumSubAcctType) "SUBACCTFUND" v.SubAcctFund,
  omitted (v.TaxExempt = false) (always .bool "TAXEXEMPT" v.TaxExempt),
  always .amount "WITHHOLDING" v.Withholding,
  named v.Currency.XMLName "CURRENCY" (currencyContent v.Currency),
  named v.OrigCurrency.XMLName "ORIGCURRENCY" (currencyContent v.OrigCurrency),
  omitted (v.Inv401kSource = 0) (always (.enum enumInv401kSource) "INV401KSOURCE" v.Inv401kSource)]

/-- invstmt.go 254-264 -/
def invExpenseContent (v : Ofx.InvExpense) : List Node := List.flatten [
  element "INVTRAN" (invTranContent v.InvTran),
  element "SECID" (securityIDContent v.SecID),
  always .amount "TOTAL" v.Total,
  always (.enum enumSubAcctType) "SUBACCTSEC" v.SubAcctSec,
  always (.enum enumSubAcctType) "SUBACCTFUND" v.SubAcctFund,
  named v.Currency.XMLName "CURRENCY" (currencyContent v.Currency),
  named v.OrigCurrency.XMLName "ORIGCURRENCY" (currencyContent v.OrigCurrency),
  omitted (v.Inv401kSource = 0) (always (.enum enumInv401kSource) "INV401KSOURCE" v.Inv401kSource)]

/-- invstmt.go 277-283 -/
def jrnlFundContent (v : Ofx.JrnlFund) : List Node := List.flatten [
  element "INVTRAN" (invTranContent v.InvTran),
  always .amount "TOTAL" v.Total,
  always (.enum enumSubAcctType) "SUBACCTFROM" v.SubAcctFrom,
  always (.enum enumSubAcctType) "SUBACCTTO" v.SubAcctTo]

/-- invstmt.go 296-303 -/
def jrnlSecContent (v : Ofx.JrnlSec) : List Node := List.flatten [
  element "INVTRAN" (invTranContent v.InvTran),
  element "SECID" (securityIDContent v.SecID),
  always (.enum enumSubAcctType) "SUBACCTFROM" v.SubAcctFrom,
  always (.enum enumSubAcctType) "SUBACCTTO" v.SubAcctTo,
  always .amount "UNITS" v.Units]

/-- invstmt.go 315-322 -/
def marginInterestContent (v : Ofx.MarginInterest) : List Node := List.flatten [
  element "INVTRAN" (invTranContent v.InvTran),
  always .amount "TOTAL" v.Total,
  always (.enum enumSubAcctType) "SUBACCTFUND" v.SubAcctFund,
  named v.Currency.XMLName "CURRENCY" (currencyContent v.Currency),
  named v.OrigCurrency.XMLName "ORIGCURRENCY" (currencyContent v.OrigCurrency)]

/-- invstmt.go 336-353 -/
def reinvestContent (v : Ofx.Reinvest) : List Node := List.flatten [
  element "INVTRAN" (invTranContent v.InvTran),
  element "SECID" (securityIDContent v.SecID),
  always (.enum enumIncomeType) "INCOMETYPE" v.IncomeType,
  always .amount "TOTAL" v.Total,
  always (.enum enumSubAcctType) "SUBACCTSEC" v.SubAcctSec,
  always .amount "UNITS" v.Units,
  always .amount "UNITPRICE" v.UnitPrice,
  always .amount "COMMISSION" v.Commission,
  always .amount "TAXES" v.Taxes,
  always .amount "FEES" v.Fees,
  always .amount "LOAD" v.Load,
  omitted (v.TaxExempt = false) (always .bool "TAXEXEMPT" v.TaxExempt),
  named v.Currency.XMLName "CURRENCY" (currencyContent v.Currency),
  named v.OrigCurrency.XMLName "ORIGCURRENCY" (currencyContent v.OrigCurrency),
  omitted (v.Inv401kSource = 0) (always (.enum enumInv401kSource) "INV401KSOURCE" v.Inv401kSource)]

/-- invstmt.go 366-376 -/
def retOfCapContent (v : Ofx.RetOfCap) : List Node := List.flatten [
  element "INVTRAN" (invTranContent v.InvTran),
  element "SECID" (securityIDContent v.SecID),
  always .amount "TOTAL" v.Total,
  always (.enum enumSubAcctType) "SUBACCTSEC" v.SubAcctSec,
  always (.enum enumSubAcctType) "SUBACCTFUND" v.SubAcctFund,
  named v.Currency.XMLName "CURRENCY" (currencyContent v.Currency),
  named v.OrigCurrency.XMLName "ORIGCURRENCY" (currencyContent v.OrigCurrency),
  omitted (v.Inv401kSource = 0) (always (.enum enumInv401kSource) "INV401KSOURCE" v.Inv401kSource)]

/-- invstmt.go 389-394 -/
def sellDebtContent (v : Ofx.SellDebt) : List Node := List.flatten [
  element "INVSELL" (invSellContent v.InvSell),
  always (.enum enumSellReason) "SELLREASON" v.SellReason,
  always .amount "ACCRDINT" v.AccrdInt]

/-- invstmt.go 406-412 -/
def sellMFContent (v : Ofx.SellMF) : List Node := List.flatten [
  element "INVSELL" (invSellContent v.InvSell),
  always (.enum enumSellType) "SELLTYPE" v.SellType,
  always .amount "AVGCOSTBASIS" v.AvgCostBasis,
  omitted (v.RelFiTID = []) (always .str "RELFITID" v.RelFiTID)]

/-- invstmt.go 426-434 -/
def sellOptContent (v : Ofx.SellOpt) : List Node := List.flatten [
  element "INVSELL" (invSellContent v.InvSell),
  always (.enum enumOptSellType) "OPTSELLTYPE" v.OptSellType,
  always .int "SHPERCTRCT" v.ShPerCtrct,
  omitted (v.RelFiTID = []) (always .str "RELFITID" v.RelFiTID),
  omitted (v.RelType = 0) (always (.enum enumRelType) "RELTYPE" v.RelType),
  omitted (v.Secured = 0) (always (.enum enumSecured) "SECURED" v.Secured)]

/-- invstmt.go 447-450 -/
def sellOtherContent (v : Ofx.SellOther) : List Node := List.flatten [
  element "INVSELL" (invSellContent v.InvSell)]

/-- invstmt.go 462-466 -/
def sellStockContent (v : Ofx.SellStock) : List Node := List.flatten [
  element "INVSELL" (invSellContent v.InvSell),
  always (.enum enumSellType) "SELLTYPE" v.SellType]

/-- invstmt.go 478-492 -/
def splitContent (v : Ofx.Split) : List Node := List.flatten [
  element "INVTRAN" (invTranContent v.InvTran),
  element "SECID" (securityIDContent v.SecID),
  always (.enum enumSubAcctType) "SUBACCTSEC" v.SubAcctSec,
  always .amount "OLDUNITS" v.OldUnits,
  always .amount "NEWUNITS" v.NewUnits,
  always .int "NUMERATOR" v.Numerator,
  always .int "DENOMINATOR" v.Denominator,
  named v.Currency.XMLName "CURRENCY" (currencyContent v.Currency),
  named v.OrigCurrency.XMLName "ORIGCURRENCY" (currencyContent v.OrigCurrency),
  always .amount "FRACCASH" v.FracCash,
  omitted (v.SubAcctFund = 0) (always (.enum enumSubAcctType) "SUBACCTFUND" v.SubAcctFund),
  omitted (v.Inv401kSource = 0) (always (.enum enumInv401kSource) "INV401KSOURCE" v.Inv401kSource)]

/-- invstmt.go 504-517 -/
def transferContent (v : Ofx.Transfer) : List Node := List.flatten [
  element "INVTRAN" (invTranContent v.InvTran),
  element "SECID" (securityIDContent v.SecID),
  always (.enum enumSubAcctType) "SUBACCTSEC" v.SubAcctSec,
  always .amount "UNITS" v.Units,
  always (.enum enumTferAction) "TFERACTION" v.TferAction,
  always (.enum enumPosType) "POSTYPE" v.PosType,
  named v.InvAcctFrom.XMLName "INVACCTFROM" (invAcctContent v.InvAcctFrom),
  always .amount "AVGCOSTBASIS" v.AvgCostBasis,
  always .amount "UNITPRICE" v.UnitPrice,
  ifAny (fun x => always .date "DTPURCHASE" x) v.DtPurchase,
  omitted (v.Inv401kSource = 0) (always (.enum enumInv401kSource) "INV401KSOURCE" v.Inv401kSource)]

/-- invstmt.go 538-542 -/
def invBankTransactionContent (v : Ofx.InvBankTransaction) : List Node := List.flatten [
  v.Transactions.flatMap (fun x => element "STMTTRN" (transactionContent x)),
  always (.enum enumSubAcctType) "SUBACCTFUND" v.SubAcctFund]

/-- The element written for a InvTransaction. -/
def invTransactionXml : Ofx.InvTransaction → List Node
  | .buyDebt v => element "BUYDEBT" (buyDebtContent v)
  | .buyMF v => element "BUYMF" (buyMFContent v)
  | .buyOpt v => element "BUYOPT" (buyOptContent v)
  | .buyOther v => element "BUYOTHER" (buyOtherContent v)
  | .buyStock v => element "BUYSTOCK" (buyStockContent v)
  | .closureOpt v => element "CLOSUREOPT" (closureOptContent v)
  | .income v => element "INCOME" (incomeContent v)
  | .invExpense v => element "INVEXPENSE" (invExpenseContent v)
  | .jrnlFund v => element "JRNLFUND" (jrnlFundContent v)
  | .jrnlSec v => element "JRNLSEC" (jrnlSecContent v)
  | .marginInterest v => element "MARGININTEREST" (marginInterestContent v)
  | .reinvest v => element "REINVEST" (reinvestContent v)
  | .retOfCap v => element "RETOFCAP" (retOfCapContent v)
  | .sellDebt v => element "SELLDEBT" (sellDebtContent v)
  | .sellMF v => element "SELLMF" (sellMFContent v)
  | .sellOpt v => element "SELLOPT" (sellOptContent v)
  | .sellOther v => element "SELLOTHER" (sellOtherContent v)
  | .sellStock v => element "SELLSTOCK" (sellStockContent v)
  | .split v => element "SPLIT" (splitContent v)
  | .transfer v => element "TRANSFER" (transferContent v)

/-- invstmt.go 548-554 -/
def invTranListContent (v : Ofx.InvTranList) : List Node :=
  List.flatten [
  always .date "DTSTART" v.DtStart,
  always .date "DTEND" v.DtEnd,
  v.InvTransactions.flatMap invTransactionXml,
  v.BankTransactions.flatMap (fun x => element "INVBANKTRAN" (invBankTransactionContent x))]

/-- invstmt.go 830-843 -/
def invPositionContent (v : Ofx.InvPosition) : List Node := List.flatten [
  element "SECID" (securityIDContent v.SecID),
  always (.enum enumSubAcctType) "HELDINACCT" v.HeldInAcct,
  always (.enum enumPosType) "POSTYPE" v.PosType,
  always .amount "UNITS" v.Units,
  always .amount "UNITPRICE" v.UnitPrice,
  always .amount "MKTVAL" v.MktVal,
  always .amount "AVGCOSTBASIS" v.AvgCostBasis,
  always .date "DTPRICEASOF" v.DtPriceAsOf,
  ifAny (fun x => named x.XMLName "CURRENCY" (currencyContent x)) v.Currency,
  omitted (v.Memo = []) (always .str "MEMO" v.Memo),
  omitted (v.Inv401kSource = 0) (always (.enum enumInv401kSource) "INV401KSOURCE" v.Inv401kSource)]

/-- invstmt.go 852-855 -/
def debtPositionContent (v : Ofx.DebtPosition) : List Node := List.flatten [
  element "INVPOS" (invPositionContent v.InvPos)]

/-- invstmt.go 868-875 -/
def mFPositionContent (v : Ofx.MFPosition) : List Node := List.flatten [
  element "INVPOS" (invPositionContent v.InvPos),
  always .amount "UNITSSTREET" v.UnitsStreet,
  always .amount "UNITSUSER" v.UnitsUser,
  omitted (v.ReinvDiv = false) (always .bool "REINVDIV" v.ReinvDiv),
  omitted (v.ReinvCG = false) (always .bool "REINVCG" v.ReinvCG)]

/-- invstmt.go 888-892 -/
def optPositionContent (v : Ofx.OptPosition) : List Node := List.flatten [
  element "INVPOS" (invPositionContent v.InvPos),
  omitted (v.Secured = 0) (always (.enum enumSecured) "SECURED" v.Secured)]

/-- invstmt.go 906-909 -/
def otherPositionContent (v : Ofx.OtherPosition) : List Node := List.flatten [
  element "INVPOS" (invPositionContent v.InvPos)]

/-- invstmt.go 922-928 -/
def stockPositionContent (v : Ofx.StockPosition) : List Node := List.flatten [
  element "INVPOS" (invPositionContent v.InvPos),
  always .amount "UNITSSTREET" v.UnitsStreet,
  always .amount "UNITSUSER" v.UnitsUser,
  omitted (v.ReinvDiv = false) (always .bool "REINVDIV" v.ReinvDiv)]

/-- invstmt.go 1036-1043 -/
def invBalanceContent (v : Ofx.InvBalance) : List Node := List.flatten [
  always .amount "AVAILCASH" v.AvailCash,
  always .amount "MARGINBALANCE" v.MarginBalance,
  always .amount "SHORTBALANCE" v.ShortBalance,
  always .amount "BUYPOWER" v.BuyPower,
  element "BALLIST" <| List.flatten [
    v.BalList.flatMap (fun x => element "BAL" (balanceContent x))]]

/-- invstmt.go 1047-1063 -/
def oOContent (v : Ofx.OO) : List Node := List.flatten [
  always .str "FITID" v.FiTID,
  omitted (v.SrvrTID = []) (always .str "SRVRTID" v.SrvrTID),
  element "SECID" (securityIDContent v.SecID),
  always .date "DTPLACED" v.DtPlaced,
  always .amount "UNITS" v.Units,
  always (.enum enumSubAcctType) "SUBACCT" v.SubAcct,
  always (.enum enumDuration) "DURATION" v.Duration,
  always (.enum enumRestriction) "RESTRICTION" v.Restriction,
  always .amount "MINUNITS" v.MinUnits,
  always .amount "LIMITPRICE" v.LimitPrice,
  always .amount "STOPPRICE" v.StopPrice,
  omitted (v.Memo = []) (always .str "MEMO" v.Memo),
  ifAny (fun x => named x.XMLName "CURRENCY" (currencyContent x)) v.Currency,
  omitted (v.Inv401kSource = 0) (always (.enum enumInv401kSource) "INV401KSOURCE" v.Inv401kSource)]

/-- invstmt.go 1071-1076 -/
def oOBuyDebtContent (v : Ofx.OOBuyDebt) : List Node := List.flatten [
  element "OO" (oOContent v.OO),
  always .bool "AUCTION" v.Auction,
  ifAny (fun x => always .date "DTAUCTION" x) v.DtAuction]

/-- invstmt.go 1084-1089 -/
def oOBuyMFContent (v : Ofx.OOBuyMF) : List Node := List.flatten [
  element "OO" (oOContent v.OO),
  always (.enum enumBuyType) "BUYTYPE" v.BuyType,
  always (.enum enumUnitType) "UNITTYPE" v.UnitType]

/-- invstmt.go 1097-1101 -/
def oOBuyOptContent (v : Ofx.OOBuyOpt) : List Node := List.flatten [
  element "OO" (oOContent v.OO),
  always (.enum enumOptBuyType) "OPTBUYTYPE" v.OptBuyType]

/-- invstmt.go 1110-1114 -/
def oOBuyOtherContent (v : Ofx.OOBuyOther) : List Node := List.flatten [
  element "OO" (oOContent v.OO),
  always (.enum enumUnitType) "UNITTYPE" v.UnitType]

/-- invstmt.go 1122-1126 -/
def oOBuyStockContent (v : Ofx.OOBuyStock) : List Node := List.flatten [
  element "OO" (oOContent v.OO),
  always (.enum enumBuyType) "BUYTYPE" v.BuyType]

/-- invstmt.go 1134-1137 -/
def oOSellDebtContent (v : Ofx.OOSellDebt) : List Node := List.flatten [
  element "OO" (oOContent v.OO)]

/-- invstmt.go 1145-1151 -/
def oOSellMFContent (v : Ofx.OOSellMF) : List Node := List.flatten [
  element "OO" (oOContent v.OO),
  always (.enum enumSellType) "SELLTYPE" v.SellType,
  always (.enum enumUnitType) "UNITTYPE" v.UnitType,
  always .bool "SELLALL" v.SellAll]

/-- invstmt.go 1159-1163 -/
def oOSellOptContent (v : Ofx.OOSellOpt) : List Node := List.flatten [
  element "OO" (oOContent v.OO),
  always (.enum enumOptSellType) "OPTSELLTYPE" v.OptSellType]

/-- invstmt.go 1172-1176 -/
def oOSellOtherContent (v : Ofx.OOSellOther) : List Node := List.flatten [
  element "OO" (oOContent v.OO),
  always (.enum enumUnitType) "UNITTYPE" v.UnitType]

/-- invstmt.go 1184-1188 -/
def oOSellStockContent (v : Ofx.OOSellStock) : List Node := List.flatten [
  element "OO" (oOContent v.OO),
  always (.enum enumSellType) "SELLTYPE" v.SellType]

/-- invstmt.go 1197-1203 -/
def oOSwitchMFContent (v : Ofx.OOSwitchMF) : List Node := List.flatten [
  element "OO" (oOContent v.OO),
  element "SECID" (securityIDContent v.SecID),
  always (.enum enumUnitType) "UNITTYPE" v.UnitType,
  always .bool "SWITCHALL" v.SwitchAll]

/-- invstmt.go 1364-1381 -/
def contribSecurityContent (v : Ofx.ContribSecurity) : List Node := List.flatten [
  element "SECID" (securityIDContent v.SecID),
  always .amount "PRETAXCONTRIBPCT" v.PreTaxContribPct,
  always .amount "PRETAXCONTRIBAMT" v.PreTaxContribAmt,
  always .amount "AFTERTAXCONTRIBPCT" v.AfterTaxContribPct,
  always .amount "AFTERTAXCONTRIBAMT" v.AfterTaxContribAmt,
  always .amount "MATCHCONTRIBPCT" v.MatchContribPct,
  always .amount "MATCHCONTRIBAMT" v.MatchContribAmt,
  always .amount "PROFITSHARINGCONTRIBPCT" v.ProfitSharingContribPct,
  always .amount "PROFITSHARINGCONTRIBAMT" v.ProfitSharingContribAmt,
  always .amount "ROLLOVERCONTRIBPCT" v.RolloverContribPct,
  always .amount "ROLLOVERCONTRIBAMT" v.RolloverContribAmt,
  always .amount "OTHERVESTPCT" v.OtherVestPct,
  always .amount "OTHERVESTAMT" v.OtherVestAmt,
  always .amount "OTHERNONVESTPCT" v.OtherNonVestPct,
  always .amount "OTHERNONVESTAMT" v.OtherNonVestAmt]

/-- invstmt.go 1385-1389 -/
def vestInfoContent (v : Ofx.VestInfo) : List Node := List.flatten [
  ifAny (fun x => always .date "VESTDATE" x) v.VestDate,
  always .amount "VESTPCT" v.VestPct]

/-- invstmt.go 1392-1409 -/
def loanInfoContent (v : Ofx.LoanInfo) : List Node := List.flatten [
  always .str "LOANID" v.LoanID,
  omitted (v.LoanDesc = []) (always .str "LOANDESC" v.LoanDesc),
  always .amount "INITIALLOANBAL" v.InitialLoanBal,
  ifAny (fun x => always .date "LOANSTARTDATE" x) v.LoanStartDate,
  always .amount "CURRENTLOANBAL" v.CurrentLoanBal,
  ifAny (fun x => always .date "DTASOF" x) v.DtAsOf,
  always .amount "LOANRATE" v.LoanRate,
  always .amount "LOANPMTAMT" v.LoanPmtAmt,
  omitted (v.LoanPmtFreq = 0) (always (.enum enumLoanPmtFreq) "LOANPMTFREQ" v.LoanPmtFreq),
  omitted (v.LoanPmtsInitial = 0) (always .int "LOANPMTSINITIAL" v.LoanPmtsInitial),
  omitted (v.LoanPmtsRemaining = 0) (always .int "LOANPMTSREMAINING" v.LoanPmtsRemaining),
  ifAny (fun x => always .date "LOANMATURITYDATE" x) v.LoanMaturityDate,
  always .amount "LOANTOTALPROJINTEREST" v.LoanTotalProjInterest,
  always .amount "LOANINTERESTTODATE" v.LoanInterestToDate,
  ifAny (fun x => always .date "LOANNEXTPMTDATE" x) v.LoanExtPmtDate]

/-- invstmt.go 1414-1424 -/
def inv401KSummaryAggregateContent (v : Ofx.Inv401KSummaryAggregate) : List Node := List.flatten [
  always .amount "PRETAX" v.PreTax,
  always .amount "AFTERTAX" v.AfterTax,
  always .amount "MATCH" v.Match,
  always .amount "PROFITSHARING" v.ProfitSharing,
  always .amount "ROLLOVER" v.Rollover,
  always .amount "OTHERVEST" v.OtherVest,
  always .amount "OTHERNONVEST" v.OtherNonVest,
  always .amount "TOTAL" v.Total]

/-- invstmt.go 1428-1435 -/
def inv401KSummaryPeriodContent (v : Ofx.Inv401KSummaryPeriod) : List Node := List.flatten [
  always .date "DTSTART" v.DtStart,
  always .date "DTEND" v.DtEnd,
  ifAny (fun x => named x.XMLName "CONTRIBUTIONS" (inv401KSummaryAggregateContent x)) v.Contributions,
  ifAny (fun x => named x.XMLName "WITHDRAWLS" (inv401KSummaryAggregateContent x)) v.Withdrawls,
  ifAny (fun x => named x.XMLName "EARNINGS" (inv401KSummaryAggregateContent x)) v.Earnings]

/-- invstmt.go 1439-1463 -/
def inv401KContent (v : Ofx.Inv401K) : List Node := List.flatten [
  always .str "EMPLOYERNAME" v.EmployerName,
  omitted (v.PlanID = []) (always .str "PLANID" v.PlanID),
  ifAny (fun x => always .date "PLANJOINDATE" x) v.PlanJoinDate,
  omitted (v.EmployerContactInfo = []) (always .str "EMPLOYERCONTACTINFO" v.EmployerContactInfo),
  omitted (v.BrokerContactInfo = []) (always .str "BROKERCONTACTINFO" v.BrokerContactInfo),
  always .amount "DEFERPCTPRETAX" v.DeferPctPreTax,
  always .amount "DEFERPCTAFTERTAX" v.DeferPctAfterTax,
  element "MATCHINFO" <| List.flatten [
    always .amount "MATCHPCT" v.MatchPct,
    always .amount "MAXMATCHAMT" v.MaxMatchAmt,
    always .amount "MAXMATCHPCT" v.MaxMatchPct,
    ifAny (fun x => always .date "STARTOFYEAR" x) v.StartOfYear,
    always .amount "BASEMATCHAMT" v.BaseMatchAmt,
    always .amount "BASEMATCHPCT" v.BaseMatchPct],
  element "CONTRIBINTO" <| List.flatten [
    v.ContribInfo.flatMap (fun x => element "CONTRIBSECURITY" (contribSecurityContent x))],
  always .amount "CURRENTVESTPCT" v.CurrentVestPct,
  v.VestInfo.flatMap (fun x => element "VESTINFO" (vestInfoContent x)),
  v.LoanInfo.flatMap (fun x => element "VESTINFO" (loanInfoContent x)),
  element "INV401KSUMMARY" <| List.flatten [
    named v.YearToDateSummary.XMLName "YEARTODATE" (inv401KSummaryPeriodContent v.YearToDateSummary),
    ifAny (fun x => named x.XMLName "INCEPTODATE" (inv401KSummaryPeriodContent x)) v.InceptToDateSummary,
    ifAny (fun x => named x.XMLName "PERIODTODATE" (inv401KSummaryPeriodContent x)) v.PeriodToDate]]

/-- invstmt.go 1467-1479 -/
def inv401KBalContent (v : Ofx.Inv401KBal) : List Node := List.flatten [
  always .amount "CASHBAL" v.CashBal,
  always .amount "PRETAX" v.PreTax,
  always .amount "AFTERTAX" v.AfterTax,
  always .amount "MATCH" v.Match,
  always .amount "PROFITSHARING" v.ProfitSharing,
  always .amount "ROLLOVER" v.Rollover,
  always .amount "OTHERVEST" v.OtherVest,
  always .amount "OTHERNONVEST" v.OtherNonVest,
  always .amount "TOTAL" v.Total,
  element "BALLIST" <| List.flatten [
    v.BalList.flatMap (fun x => element "BAL" (balanceContent x))]]

/-- The element written for a Position. -/
def positionXml : Ofx.Position → List Node
  | .debtPosition v => element "POSDEBT" (debtPositionContent v)
  | .mfPosition v => element "POSMF" (mFPositionContent v)
  | .optPosition v => element "POSOPT" (optPositionContent v)
  | .otherPosition v => element "POSOTHER" (otherPositionContent v)
  | .stockPosition v => element "POSSTOCK" (stockPositionContent v)

/-- The element written for a OpenOrder. -/
def openOrderXml : Ofx.OpenOrder → List Node
  | .ooBuyDebt v => element "OOBUYDEBT" (oOBuyDebtContent v)
  | .ooBuyMF v => element "OOBUYMF" (oOBuyMFContent v)
  | .ooBuyOpt v => element "OOBUYOPT" (oOBuyOptContent v)
  | .ooBuyOther v => element "OOBUYOTHER" (oOBuyOtherContent v)
  | .ooBuyStock v => element "OOBUYSTOCK" (oOBuyStockContent v)
  | .ooSellDebt v => element "OOSELLDEBT" (oOSellDebtContent v)
  | .ooSellMF v => element "OOSELLMF" (oOSellMFContent v)
  | .ooSellOpt v => element "OOSELLOPT" (oOSellOptContent v)
  | .ooSellOther v => element "OOSELLOTHER" (oOSellOtherContent v)
  | .ooSellStock v => element "OOSELLSTOCK" (oOSellStockContent v)
  | .ooSwitchMF v => element "SWITCHMF" (oOSwitchMFContent v)

/-- invstmt.go 1485-1501 -/
def invStatementResponseContent (v : Ofx.InvStatementResponse) : List Node := List.flatten [
  always .uid "TRNUID" v.TrnUID,
  element "STATUS" (statusContent v.Status),
  omitted (v.CltCookie = []) (always .str "CLTCOOKIE" v.CltCookie),
  element "INVSTMTRS" <| List.flatten [
    always .date "DTASOF" v.DtAsOf,
    always .curr "CURDEF" v.CurDef,
    named v.InvAcctFrom.XMLName "INVACCTFROM" (invAcctContent v.InvAcctFrom),
    ifAny (fun x => element "INVTRANLIST" (invTranListContent x)) v.InvTranList,
    omitted (v.InvPosList = []) (element "INVPOSLIST" (v.InvPosList.flatMap positionXml)),
    ifAny (fun x => element "INVBAL" (invBalanceContent x)) v.InvBal,
    omitted (v.InvOOList = []) (element "INVOOLIST" (v.InvOOList.flatMap openOrderXml)),
    omitted (v.MktgInfo = []) (always .str "MKTGINFO" v.MktgInfo),
    ifAny (fun x => element "INV401K" (inv401KContent x)) v.Inv401K,
    ifAny (fun x => element "INV401KBAL" (inv401KBalContent x)) v.Inv401KBal]]

end Ofx.Spec
