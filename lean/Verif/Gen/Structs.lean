import Verif.Codec.Schema
/-
GENERATED by tools/gen_structs.py from the struct declarations of /repo -- do not edit.

Go structs as Lean structures, fields under their Go names: pointers are `Option`,
slices are `List`, interface types are sums of the concrete types that the
hand-written MarshalXML methods accept.  XMLName fields with a tag are dropped: they
are set by decoding and never read (encoding/xml takes the name from the tag).  Untagged
XMLName fields are kept (their `Local` part).
-/
namespace Ofx

/-- common.go 264-269 -/
structure Status where
  Code : Int
  Severity : Str
  Message : Str

/-- common.go 308-315 -/
structure BankAcct where
  XMLName : Str
  BankID : Str
  BranchID : Str
  AcctID : Str
  AcctType : Nat
  AcctKey : Str

/-- common.go 332-336 -/
structure CCAcct where
  XMLName : Str
  AcctID : Str
  AcctKey : Str

/-- common.go 347-351 -/
structure InvAcct where
  XMLName : Str
  BrokerID : Str
  AcctID : Str

/-- common.go 358-362 -/
structure Currency where
  XMLName : Str
  CurRate : Rat
  CurSym : CurrSymbol

/-- bank.go 12-24 -/
structure StatementRequest where
  TrnUID : Str
  CltCookie : Str
  TAN : Str
  BankAcctFrom : Ofx.BankAcct
  DtStart : Option GoTime
  DtEnd : Option GoTime
  Include : Bool
  IncludePending : Bool
  IncTranImg : Bool

/-- bank.go 53-64 -/
structure Payee where
  Name : Str
  Addr1 : Str
  Addr2 : Str
  Addr3 : Str
  City : Str
  State : Str
  PostalCode : Str
  Country : Str
  Phone : Str

/-- bank.go 88-98 -/
structure ImageData where
  ImageType : Nat
  ImageRef : Str
  ImageRefType : Nat
  ImageDelay : Int
  DtImageAvail : Option GoTime
  ImageTTL : Int
  CheckSup : Nat

/-- bank.go 104-132 -/
structure Transaction where
  TrnType : Nat
  DtPosted : GoTime
  DtUser : Option GoTime
  DtAvail : Option GoTime
  TrnAmt : Rat
  FiTID : Str
  CorrectFiTID : Str
  CorrectAction : Nat
  SrvrTID : Str
  CheckNum : Str
  RefNum : Str
  SIC : Int
  PayeeID : Str
  Name : Str
  Payee : Option Ofx.Payee
  ExtdName : Str
  BankAcctTo : Option Ofx.BankAcct
  CCAcctTo : Option Ofx.CCAcct
  Memo : Str
  ImageData : List Ofx.ImageData
  Currency : Option Ofx.Currency
  OrigCurrency : Option Ofx.Currency
  Inv401kSource : Nat

/-- bank.go 184-189 -/
structure TransactionList where
  DtStart : GoTime
  DtEnd : GoTime
  Transactions : List Ofx.Transaction

/-- bank.go 211-226 -/
structure PendingTransaction where
  TrnType : Nat
  DtTran : GoTime
  DtExpire : Option GoTime
  TrnAmt : Rat
  RefNum : Str
  Name : Str
  ExtdName : Str
  Memo : Str
  ImageData : List Ofx.ImageData
  Currency : Ofx.Currency
  OrigCurrency : Ofx.Currency

/-- bank.go 248-252 -/
structure PendingTransactionList where
  DtAsOf : GoTime
  Transactions : List Ofx.PendingTransaction

/-- bank.go 270-284 -/
structure Balance where
  Name : Str
  Desc : Str
  BalType : Nat
  Value : Rat
  DtAsOf : Option GoTime
  Currency : Option Ofx.Currency

/-- bank.go 300-318 -/
structure StatementResponse where
  TrnUID : Str
  Status : Ofx.Status
  CltCookie : Str
  CurDef : CurrSymbol
  BankAcctFrom : Ofx.BankAcct
  BankTranList : Option Ofx.TransactionList
  BankTranListP : Option Ofx.PendingTransactionList
  BalAmt : Rat
  DtAsOf : GoTime
  AvailBalAmt : Option Rat
  AvailDtAsOf : Option GoTime
  CashAdvBalAmt : Option Rat
  IntRate : Option Rat
  BalList : List Ofx.Balance
  MktgInfo : Str

/-- creditcard.go 10-22 -/
structure CCStatementRequest where
  TrnUID : Str
  CltCookie : Str
  TAN : Str
  CCAcctFrom : Ofx.CCAcct
  DtStart : Option GoTime
  DtEnd : Option GoTime
  Include : Bool
  IncludePending : Bool
  IncTranImg : Bool

/-- creditcard.go 48-71 -/
structure CCStatementResponse where
  TrnUID : Str
  Status : Ofx.Status
  CltCookie : Str
  CurDef : CurrSymbol
  CCAcctFrom : Ofx.CCAcct
  BankTranList : Option Ofx.TransactionList
  BalAmt : Rat
  DtAsOf : GoTime
  AvailBalAmt : Option Rat
  AvailDtAsOf : Option GoTime
  CashAdvBalAmt : Rat
  IntRatePurch : Rat
  IntRateCash : Rat
  IntRateXfer : Rat
  RewardName : Str
  RewardBal : Rat
  RewardEarned : Rat
  BalList : List Ofx.Balance
  MktgInfo : Str

/-- signon.go 11-24 -/
structure SignonRequest where
  DtClient : GoTime
  UserID : Str
  UserPass : Str
  UserKey : Str
  GenUserKey : Bool
  Language : Str
  Org : Str
  Fid : Str
  AppID : Str
  AppVer : Str
  ClientUID : Str

/-- signon.go 62-75 -/
structure SignonResponse where
  Status : Ofx.Status
  DtServer : GoTime
  UserKey : Str
  TsKeyExpire : Option GoTime
  Language : Str
  DtProfUp : Option GoTime
  DtAcctUp : Option GoTime
  Org : Str
  Fid : Str
  SessCookie : Str
  AccessKey : Str

/-- signup.go 10-17 -/
structure AcctInfoRequest where
  TrnUID : Str
  CltCookie : Str
  TAN : Str
  DtAcctUp : GoTime

/-- signup.go 41-57 -/
structure HolderInfo where
  XMLName : Str
  FirstName : Str
  MiddleName : Str
  LastName : Str
  Addr1 : Str
  Addr2 : Str
  Addr3 : Str
  City : Str
  State : Str
  PostalCode : Str
  Country : Str
  DayPhone : Str
  EvePhone : Str
  Email : Str
  HolderType : Nat

/-- signup.go 62-74 -/
structure BankAcctInfo where
  BankAcctFrom : Ofx.BankAcct
  SupTxDl : Bool
  XferSrc : Bool
  XferDest : Bool
  MaturityDate : GoTime
  MaturityAmt : Rat
  MinBalReq : Rat
  AcctClassification : Nat
  OverdraftLimit : Rat
  SvcStatus : Nat

/-- signup.go 84-92 -/
structure CCAcctInfo where
  CCAcctFrom : Ofx.CCAcct
  SupTxDl : Bool
  XferSrc : Bool
  XferDest : Bool
  AcctClassification : Nat
  SvcStatus : Nat

/-- signup.go 102-110 -/
structure InvAcctInfo where
  InvAcctFrom : Ofx.InvAcct
  UsProductType : Nat
  Checking : Bool
  SvcStatus : Nat
  InvAcctType : Nat
  OptionLevel : Str

/-- signup.go 120-134 -/
structure AcctInfo where
  Name : Str
  Desc : Str
  Phone : Str
  PrimaryHolder : Ofx.HolderInfo
  SecondaryHolder : Ofx.HolderInfo
  BankAcctInfo : Option Ofx.BankAcctInfo
  CCAcctInfo : Option Ofx.CCAcctInfo
  InvAcctInfo : Option Ofx.InvAcctInfo

/-- signup.go 138-146 -/
structure AcctInfoResponse where
  TrnUID : Str
  Status : Ofx.Status
  CltCookie : Str
  DtAcctUp : GoTime
  AcctInfo : List Ofx.AcctInfo

/-- profile.go 12-20 -/
structure ProfileRequest where
  TrnUID : Str
  CltCookie : Str
  TAN : Str
  ClientRouting : Str
  DtProfUp : GoTime

/-- profile.go 48-68 -/
structure SignonInfo where
  SignonRealm : Str
  Min : Int
  Max : Int
  CharType : Nat
  CaseSen : Bool
  Special : Bool
  Spaces : Bool
  PinCh : Bool
  ChgPinFirst : Bool
  UserCred1Label : Str
  UserCred2Label : Str
  ClientUIDReq : Bool
  AuthTokenFirst : Bool
  AuthTokenLabel : Str
  AuthTokenInfoURL : Str
  MFAChallengeSupt : Bool
  MFAChallengeFIRST : Bool
  AccessTokenReq : Bool

/-- profile.go 72-86 -/
structure MessageSet where
  XMLName : Str
  Name : Str
  Ver : Int
  URL : Str
  OfxSec : Nat
  TranspSec : Bool
  SignonRealm : Str
  Language : List Str
  SyncMode : Nat
  RefreshSupt : Bool
  RespFileER : Bool
  SpName : Str

/-- profile.go 90 -/
abbrev MessageSetList := List MessageSet

/-- profile.go 164-186 -/
structure ProfileResponse where
  TrnUID : Str
  Status : Ofx.Status
  CltCookie : Str
  MessageSetList : Ofx.MessageSetList
  SignonInfoList : List Ofx.SignonInfo
  DtProfUp : GoTime
  FiName : Str
  Addr1 : Str
  Addr2 : Str
  Addr3 : Str
  City : Str
  State : Str
  PostalCode : Str
  Country : Str
  CsPhone : Str
  TsPhone : Str
  FaxPhone : Str
  URL : Str
  Email : Str

/-- seclist.go 10-14 -/
structure SecurityID where
  UniqueID : Str
  UniqueIDType : Str

/-- seclist.go 19-25 -/
structure SecurityRequest where
  SecID : Option Ofx.SecurityID
  Ticker : Str
  FiID : Str

/-- seclist.go 29-36 -/
structure SecListRequest where
  TrnUID : Str
  CltCookie : Str
  TAN : Str
  Securities : List Ofx.SecurityRequest

/-- seclist.go 64-71 -/
structure SecListResponse where
  TrnUID : Str
  Status : Ofx.Status
  CltCookie : Str

/-- seclist.go 102-113 -/
structure SecInfo where
  SecID : Ofx.SecurityID
  SecName : Str
  Ticker : Str
  FiID : Str
  Rating : Str
  UnitPrice : Rat
  DtAsOf : Option GoTime
  Currency : Option Ofx.Currency
  Memo : Str

/-- seclist.go 116-133 -/
structure DebtInfo where
  SecInfo : Ofx.SecInfo
  ParValue : Rat
  DebtType : Nat
  DebtClass : Nat
  CouponRate : Rat
  DtCoupon : Option GoTime
  CouponFreq : Nat
  CallPrice : Rat
  YieldToCall : Rat
  DtCall : Option GoTime
  CallType : Nat
  YieldToMat : Rat
  DtMat : Option GoTime
  AssetClass : Nat
  FiAssetClass : Str

/-- seclist.go 147-151 -/
structure AssetPortion where
  AssetClass : Nat
  Percent : Rat

/-- seclist.go 156-160 -/
structure FiAssetPortion where
  FiAssetClass : Str
  Percent : Rat

/-- seclist.go 163-171 -/
structure MFInfo where
  SecInfo : Ofx.SecInfo
  MfType : Nat
  Yield : Rat
  DtYieldAsOf : Option GoTime
  AssetClasses : List Ofx.AssetPortion
  FiAssetClasses : List Ofx.FiAssetPortion

/-- seclist.go 184-194 -/
structure OptInfo where
  SecInfo : Ofx.SecInfo
  OptType : Nat
  StrikePrice : Rat
  DtExpire : GoTime
  ShPerCtrct : Int
  SecID : Option Ofx.SecurityID
  AssetClass : Nat
  FiAssetClass : Str

/-- seclist.go 208-214 -/
structure OtherInfo where
  SecInfo : Ofx.SecInfo
  TypeDesc : Str
  AssetClass : Nat
  FiAssetClass : Str

/-- seclist.go 227-235 -/
structure StockInfo where
  SecInfo : Ofx.SecInfo
  StockType : Nat
  Yield : Rat
  DtYieldAsOf : Option GoTime
  AssetClass : Nat
  FiAssetClass : Str

/-- seclist.go 95: the concrete types accepted by the list that holds this interface. -/
inductive Security where
  | debtInfo (v : Ofx.DebtInfo)
  | mfInfo (v : Ofx.MFInfo)
  | optInfo (v : Ofx.OptInfo)
  | otherInfo (v : Ofx.OtherInfo)
  | stockInfo (v : Ofx.StockInfo)

/-- seclist.go 249-252 -/
structure SecurityList where
  Securities : List Ofx.Security

/-- invstmt.go 11-28 -/
structure InvStatementRequest where
  TrnUID : Str
  CltCookie : Str
  TAN : Str
  InvAcctFrom : Ofx.InvAcct
  DtStart : Option GoTime
  DtEnd : Option GoTime
  Include : Bool
  IncludeOO : Bool
  PosDtAsOf : Option GoTime
  IncludePos : Bool
  IncludeBalance : Bool
  Include401K : Bool
  Include401KBal : Bool
  IncludeTranImage : Bool

/-- invstmt.go 54-62 -/
structure InvTran where
  FiTID : Str
  SrvrTID : Str
  DtTrade : GoTime
  DtSettle : Option GoTime
  ReversalFiTID : Str
  Memo : Str

/-- invstmt.go 66-91 -/
structure InvBuy where
  InvTran : Ofx.InvTran
  SecID : Ofx.SecurityID
  Units : Rat
  UnitPrice : Rat
  Markup : Rat
  Commission : Rat
  Taxes : Rat
  Fees : Rat
  Load : Rat
  Total : Rat
  Currency : Ofx.Currency
  OrigCurrency : Ofx.Currency
  SubAcctSec : Nat
  SubAcctFund : Nat
  LoanID : Str
  LoanPrincipal : Rat
  LoanInterest : Rat
  Inv401kSource : Nat
  DtPayroll : Option GoTime
  PriorYearContrib : Bool

/-- invstmt.go 95-120 -/
structure InvSell where
  InvTran : Ofx.InvTran
  SecID : Ofx.SecurityID
  Units : Rat
  UnitPrice : Rat
  Markdown : Rat
  Commission : Rat
  Taxes : Rat
  Fees : Rat
  Load : Rat
  Withholding : Rat
  TaxExempt : Bool
  Total : Rat
  Gain : Rat
  Currency : Ofx.Currency
  OrigCurrency : Ofx.Currency
  SubAcctSec : Nat
  SubAcctFund : Nat
  LoanID : Str
  StateWithholding : Rat
  Penalty : Rat
  Inv401kSource : Nat

/-- invstmt.go 123-127 -/
structure BuyDebt where
  InvBuy : Ofx.InvBuy
  AccrdInt : Rat

/-- invstmt.go 139-144 -/
structure BuyMF where
  InvBuy : Ofx.InvBuy
  BuyType : Nat
  RelFiTID : Str

/-- invstmt.go 156-161 -/
structure BuyOpt where
  InvBuy : Ofx.InvBuy
  OptBuyType : Nat
  ShPerCtrct : Int

/-- invstmt.go 174-177 -/
structure BuyOther where
  InvBuy : Ofx.InvBuy

/-- invstmt.go 189-193 -/
structure BuyStock where
  InvBuy : Ofx.InvBuy
  BuyType : Nat

/-- invstmt.go 205-215 -/
structure ClosureOpt where
  InvTran : Ofx.InvTran
  SecID : Ofx.SecurityID
  OptAction : Nat
  Units : Rat
  ShPerCtrct : Int
  SubAcctSec : Nat
  RelFiTID : Str
  Gain : Rat

/-- invstmt.go 228-241 -/
structure Income where
  InvTran : Ofx.InvTran
  SecID : Ofx.SecurityID
  IncomeType : Nat
  Total : Rat
  SubAcctSec : Nat
  SubAcctFund : Nat
  TaxExempt : Bool
  Withholding : Rat
  Currency : Ofx.Currency
  OrigCurrency : Ofx.Currency
  Inv401kSource : Nat

/-- invstmt.go 254-264 -/
structure InvExpense where
  InvTran : Ofx.InvTran
  SecID : Ofx.SecurityID
  Total : Rat
  SubAcctSec : Nat
  SubAcctFund : Nat
  Currency : Ofx.Currency
  OrigCurrency : Ofx.Currency
  Inv401kSource : Nat

/-- invstmt.go 277-283 -/
structure JrnlFund where
  InvTran : Ofx.InvTran
  Total : Rat
  SubAcctFrom : Nat
  SubAcctTo : Nat

/-- invstmt.go 296-303 -/
structure JrnlSec where
  InvTran : Ofx.InvTran
  SecID : Ofx.SecurityID
  SubAcctFrom : Nat
  SubAcctTo : Nat
  Units : Rat

/-- invstmt.go 315-322 -/
structure MarginInterest where
  InvTran : Ofx.InvTran
  Total : Rat
  SubAcctFund : Nat
  Currency : Ofx.Currency
  OrigCurrency : Ofx.Currency

/-- invstmt.go 336-353 -/
structure Reinvest where
  InvTran : Ofx.InvTran
  SecID : Ofx.SecurityID
  IncomeType : Nat
  Total : Rat
  SubAcctSec : Nat
  Units : Rat
  UnitPrice : Rat
  Commission : Rat
  Taxes : Rat
  Fees : Rat
  Load : Rat
  TaxExempt : Bool
  Currency : Ofx.Currency
  OrigCurrency : Ofx.Currency
  Inv401kSource : Nat

/-- invstmt.go 366-376 -/
structure RetOfCap where
  InvTran : Ofx.InvTran
  SecID : Ofx.SecurityID
  Total : Rat
  SubAcctSec : Nat
  SubAcctFund : Nat
  Currency : Ofx.Currency
  OrigCurrency : Ofx.Currency
  Inv401kSource : Nat

/-- invstmt.go 389-394 -/
structure SellDebt where
  InvSell : Ofx.InvSell
  SellReason : Nat
  AccrdInt : Rat

/-- invstmt.go 406-412 -/
structure SellMF where
  InvSell : Ofx.InvSell
  SellType : Nat
  AvgCostBasis : Rat
  RelFiTID : Str

/-- invstmt.go 426-434 -/
structure SellOpt where
  InvSell : Ofx.InvSell
  OptSellType : Nat
  ShPerCtrct : Int
  RelFiTID : Str
  RelType : Nat
  Secured : Nat

/-- invstmt.go 447-450 -/
structure SellOther where
  InvSell : Ofx.InvSell

/-- invstmt.go 462-466 -/
structure SellStock where
  InvSell : Ofx.InvSell
  SellType : Nat

/-- invstmt.go 478-492 -/
structure Split where
  InvTran : Ofx.InvTran
  SecID : Ofx.SecurityID
  SubAcctSec : Nat
  OldUnits : Rat
  NewUnits : Rat
  Numerator : Int
  Denominator : Int
  Currency : Ofx.Currency
  OrigCurrency : Ofx.Currency
  FracCash : Rat
  SubAcctFund : Nat
  Inv401kSource : Nat

/-- invstmt.go 504-517 -/
structure Transfer where
  InvTran : Ofx.InvTran
  SecID : Ofx.SecurityID
  SubAcctSec : Nat
  Units : Rat
  TferAction : Nat
  PosType : Nat
  InvAcctFrom : Ofx.InvAcct
  AvgCostBasis : Rat
  UnitPrice : Rat
  DtPurchase : Option GoTime
  Inv401kSource : Nat

/-- invstmt.go 538-542 -/
structure InvBankTransaction where
  Transactions : List Ofx.Transaction
  SubAcctFund : Nat

/-- invstmt.go 530: the concrete types accepted by the list that holds this interface. -/
inductive InvTransaction where
  | buyDebt (v : Ofx.BuyDebt)
  | buyMF (v : Ofx.BuyMF)
  | buyOpt (v : Ofx.BuyOpt)
  | buyOther (v : Ofx.BuyOther)
  | buyStock (v : Ofx.BuyStock)
  | closureOpt (v : Ofx.ClosureOpt)
  | income (v : Ofx.Income)
  | invExpense (v : Ofx.InvExpense)
  | jrnlFund (v : Ofx.JrnlFund)
  | jrnlSec (v : Ofx.JrnlSec)
  | marginInterest (v : Ofx.MarginInterest)
  | reinvest (v : Ofx.Reinvest)
  | retOfCap (v : Ofx.RetOfCap)
  | sellDebt (v : Ofx.SellDebt)
  | sellMF (v : Ofx.SellMF)
  | sellOpt (v : Ofx.SellOpt)
  | sellOther (v : Ofx.SellOther)
  | sellStock (v : Ofx.SellStock)
  | split (v : Ofx.Split)
  | transfer (v : Ofx.Transfer)

/-- invstmt.go 548-554 -/
structure InvTranList where
  DtStart : GoTime
  DtEnd : GoTime
  InvTransactions : List Ofx.InvTransaction
  BankTransactions : List Ofx.InvBankTransaction

/-- invstmt.go 830-843 -/
structure InvPosition where
  SecID : Ofx.SecurityID
  HeldInAcct : Nat
  PosType : Nat
  Units : Rat
  UnitPrice : Rat
  MktVal : Rat
  AvgCostBasis : Rat
  DtPriceAsOf : GoTime
  Currency : Option Ofx.Currency
  Memo : Str
  Inv401kSource : Nat

/-- invstmt.go 852-855 -/
structure DebtPosition where
  InvPos : Ofx.InvPosition

/-- invstmt.go 868-875 -/
structure MFPosition where
  InvPos : Ofx.InvPosition
  UnitsStreet : Rat
  UnitsUser : Rat
  ReinvDiv : Bool
  ReinvCG : Bool

/-- invstmt.go 888-892 -/
structure OptPosition where
  InvPos : Ofx.InvPosition
  Secured : Nat

/-- invstmt.go 906-909 -/
structure OtherPosition where
  InvPos : Ofx.InvPosition

/-- invstmt.go 922-928 -/
structure StockPosition where
  InvPos : Ofx.InvPosition
  UnitsStreet : Rat
  UnitsUser : Rat
  ReinvDiv : Bool

/-- invstmt.go 1036-1043 -/
structure InvBalance where
  AvailCash : Rat
  MarginBalance : Rat
  ShortBalance : Rat
  BuyPower : Rat
  BalList : List Ofx.Balance

/-- invstmt.go 1047-1063 -/
structure OO where
  FiTID : Str
  SrvrTID : Str
  SecID : Ofx.SecurityID
  DtPlaced : GoTime
  Units : Rat
  SubAcct : Nat
  Duration : Nat
  Restriction : Nat
  MinUnits : Rat
  LimitPrice : Rat
  StopPrice : Rat
  Memo : Str
  Currency : Option Ofx.Currency
  Inv401kSource : Nat

/-- invstmt.go 1071-1076 -/
structure OOBuyDebt where
  OO : Ofx.OO
  Auction : Bool
  DtAuction : Option GoTime

/-- invstmt.go 1084-1089 -/
structure OOBuyMF where
  OO : Ofx.OO
  BuyType : Nat
  UnitType : Nat

/-- invstmt.go 1097-1101 -/
structure OOBuyOpt where
  OO : Ofx.OO
  OptBuyType : Nat

/-- invstmt.go 1110-1114 -/
structure OOBuyOther where
  OO : Ofx.OO
  UnitType : Nat

/-- invstmt.go 1122-1126 -/
structure OOBuyStock where
  OO : Ofx.OO
  BuyType : Nat

/-- invstmt.go 1134-1137 -/
structure OOSellDebt where
  OO : Ofx.OO

/-- invstmt.go 1145-1151 -/
structure OOSellMF where
  OO : Ofx.OO
  SellType : Nat
  UnitType : Nat
  SellAll : Bool

/-- invstmt.go 1159-1163 -/
structure OOSellOpt where
  OO : Ofx.OO
  OptSellType : Nat

/-- invstmt.go 1172-1176 -/
structure OOSellOther where
  OO : Ofx.OO
  UnitType : Nat

/-- invstmt.go 1184-1188 -/
structure OOSellStock where
  OO : Ofx.OO
  SellType : Nat

/-- invstmt.go 1197-1203 -/
structure OOSwitchMF where
  OO : Ofx.OO
  SecID : Ofx.SecurityID
  UnitType : Nat
  SwitchAll : Bool

/-- invstmt.go 1364-1381 -/
structure ContribSecurity where
  SecID : Ofx.SecurityID
  PreTaxContribPct : Rat
  PreTaxContribAmt : Rat
  AfterTaxContribPct : Rat
  AfterTaxContribAmt : Rat
  MatchContribPct : Rat
  MatchContribAmt : Rat
  ProfitSharingContribPct : Rat
  ProfitSharingContribAmt : Rat
  RolloverContribPct : Rat
  RolloverContribAmt : Rat
  OtherVestPct : Rat
  OtherVestAmt : Rat
  OtherNonVestPct : Rat
  OtherNonVestAmt : Rat

/-- invstmt.go 1385-1389 -/
structure VestInfo where
  VestDate : Option GoTime
  VestPct : Rat

/-- invstmt.go 1392-1409 -/
structure LoanInfo where
  LoanID : Str
  LoanDesc : Str
  InitialLoanBal : Rat
  LoanStartDate : Option GoTime
  CurrentLoanBal : Rat
  DtAsOf : Option GoTime
  LoanRate : Rat
  LoanPmtAmt : Rat
  LoanPmtFreq : Nat
  LoanPmtsInitial : Int
  LoanPmtsRemaining : Int
  LoanMaturityDate : Option GoTime
  LoanTotalProjInterest : Rat
  LoanInterestToDate : Rat
  LoanExtPmtDate : Option GoTime

/-- invstmt.go 1414-1424 -/
structure Inv401KSummaryAggregate where
  XMLName : Str
  PreTax : Rat
  AfterTax : Rat
  Match : Rat
  ProfitSharing : Rat
  Rollover : Rat
  OtherVest : Rat
  OtherNonVest : Rat
  Total : Rat

/-- invstmt.go 1428-1435 -/
structure Inv401KSummaryPeriod where
  XMLName : Str
  DtStart : GoTime
  DtEnd : GoTime
  Contributions : Option Ofx.Inv401KSummaryAggregate
  Withdrawls : Option Ofx.Inv401KSummaryAggregate
  Earnings : Option Ofx.Inv401KSummaryAggregate

/-- invstmt.go 1439-1463 -/
structure Inv401K where
  EmployerName : Str
  PlanID : Str
  PlanJoinDate : Option GoTime
  EmployerContactInfo : Str
  BrokerContactInfo : Str
  DeferPctPreTax : Rat
  DeferPctAfterTax : Rat
  MatchPct : Rat
  MaxMatchAmt : Rat
  MaxMatchPct : Rat
  StartOfYear : Option GoTime
  BaseMatchAmt : Rat
  BaseMatchPct : Rat
  ContribInfo : List Ofx.ContribSecurity
  CurrentVestPct : Rat
  VestInfo : List Ofx.VestInfo
  LoanInfo : List Ofx.LoanInfo
  YearToDateSummary : Ofx.Inv401KSummaryPeriod
  InceptToDateSummary : Option Ofx.Inv401KSummaryPeriod
  PeriodToDate : Option Ofx.Inv401KSummaryPeriod

/-- invstmt.go 1467-1479 -/
structure Inv401KBal where
  CashBal : Rat
  PreTax : Rat
  AfterTax : Rat
  Match : Rat
  ProfitSharing : Rat
  Rollover : Rat
  OtherVest : Rat
  OtherNonVest : Rat
  Total : Rat
  BalList : List Ofx.Balance

/-- invstmt.go 846: the concrete types accepted by the list that holds this interface. -/
inductive Position where
  | debtPosition (v : Ofx.DebtPosition)
  | mfPosition (v : Ofx.MFPosition)
  | optPosition (v : Ofx.OptPosition)
  | otherPosition (v : Ofx.OtherPosition)
  | stockPosition (v : Ofx.StockPosition)

/-- invstmt.go 942 -/
abbrev PositionList := List Position

/-- invstmt.go 1066: the concrete types accepted by the list that holds this interface. -/
inductive OpenOrder where
  | ooBuyDebt (v : Ofx.OOBuyDebt)
  | ooBuyMF (v : Ofx.OOBuyMF)
  | ooBuyOpt (v : Ofx.OOBuyOpt)
  | ooBuyOther (v : Ofx.OOBuyOther)
  | ooBuyStock (v : Ofx.OOBuyStock)
  | ooSellDebt (v : Ofx.OOSellDebt)
  | ooSellMF (v : Ofx.OOSellMF)
  | ooSellOpt (v : Ofx.OOSellOpt)
  | ooSellOther (v : Ofx.OOSellOther)
  | ooSellStock (v : Ofx.OOSellStock)
  | ooSwitchMF (v : Ofx.OOSwitchMF)

/-- invstmt.go 1211 -/
abbrev OOList := List OpenOrder

/-- invstmt.go 1485-1501 -/
structure InvStatementResponse where
  TrnUID : Str
  Status : Ofx.Status
  CltCookie : Str
  DtAsOf : GoTime
  CurDef : CurrSymbol
  InvAcctFrom : Ofx.InvAcct
  InvTranList : Option Ofx.InvTranList
  InvPosList : Ofx.PositionList
  InvBal : Option Ofx.InvBalance
  InvOOList : Ofx.OOList
  MktgInfo : Str
  Inv401K : Option Ofx.Inv401K
  Inv401KBal : Option Ofx.Inv401KBal

end Ofx
