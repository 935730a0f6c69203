import Verif.Model.Enum
/-
GENERATED by tools/gen_enums.py from /repo/constants.go -- do not edit.

One `EnumTable` per enumeration: its Go type name, the declared constants in
order (the i-th has the value 1+i, Go's `1 + iota`), the string table, and the
values of the two constants used as bounds in its `Valid` method.
-/
namespace Ofx

/-- constants.go 17-89 -/
def enumOfxVersion : EnumTable where
  goType := "ofxVersion"
  prefix_ := "OfxVersion"
  consts := ["OfxVersion102", "OfxVersion103", "OfxVersion151", "OfxVersion160", "OfxVersion200", "OfxVersion201", "OfxVersion202", "OfxVersion203", "OfxVersion210", "OfxVersion211", "OfxVersion220"]
  names := ["102".toList, "103".toList, "151".toList, "160".toList, "200".toList, "201".toList, "202".toList, "203".toList, "210".toList, "211".toList, "220".toList]
  first := 1
  last := 11

/-- constants.go 91-157 -/
def enumAcctType : EnumTable where
  goType := "acctType"
  prefix_ := "AcctType"
  consts := ["AcctTypeChecking", "AcctTypeSavings", "AcctTypeMoneyMrkt", "AcctTypeCreditLine", "AcctTypeCD"]
  names := ["CHECKING".toList, "SAVINGS".toList, "MONEYMRKT".toList, "CREDITLINE".toList, "CD".toList]
  first := 1
  last := 5

/-- constants.go 159-238 -/
def enumTrnType : EnumTable where
  goType := "trnType"
  prefix_ := "TrnType"
  consts := ["TrnTypeCredit", "TrnTypeDebit", "TrnTypeInt", "TrnTypeDiv", "TrnTypeFee", "TrnTypeSrvChg", "TrnTypeDep", "TrnTypeATM", "TrnTypePOS", "TrnTypeXfer", "TrnTypeCheck", "TrnTypePayment", "TrnTypeCash", "TrnTypeDirectDep", "TrnTypeDirectDebit", "TrnTypeRepeatPmt", "TrnTypeHold", "TrnTypeOther"]
  names := ["CREDIT".toList, "DEBIT".toList, "INT".toList, "DIV".toList, "FEE".toList, "SRVCHG".toList, "DEP".toList, "ATM".toList, "POS".toList, "XFER".toList, "CHECK".toList, "PAYMENT".toList, "CASH".toList, "DIRECTDEP".toList, "DIRECTDEBIT".toList, "REPEATPMT".toList, "HOLD".toList, "OTHER".toList]
  first := 1
  last := 18

/-- constants.go 240-304 -/
def enumImageType : EnumTable where
  goType := "imageType"
  prefix_ := "ImageType"
  consts := ["ImageTypeStatement", "ImageTypeTransaction", "ImageTypeTax"]
  names := ["STATEMENT".toList, "TRANSACTION".toList, "TAX".toList]
  first := 1
  last := 3

/-- constants.go 306-370 -/
def enumImageRefType : EnumTable where
  goType := "imageRefType"
  prefix_ := "ImageRefType"
  consts := ["ImageRefTypeOpaque", "ImageRefTypeURL", "ImageRefTypeFormURL"]
  names := ["OPAQUE".toList, "URL".toList, "FORMURL".toList]
  first := 1
  last := 3

/-- constants.go 372-436 -/
def enumCheckSup : EnumTable where
  goType := "checkSup"
  prefix_ := "CheckSup"
  consts := ["CheckSupFrontOnly", "CheckSupBackOnly", "CheckSupFrontAndBack"]
  names := ["FRONTONLY".toList, "BACKONLY".toList, "FRONTANDBACK".toList]
  first := 1
  last := 3

/-- constants.go 438-501 -/
def enumCorrectAction : EnumTable where
  goType := "correctAction"
  prefix_ := "CorrectAction"
  consts := ["CorrectActionDelete", "CorrectActionReplace"]
  names := ["DELETE".toList, "REPLACE".toList]
  first := 1
  last := 2

/-- constants.go 503-567 -/
def enumBalType : EnumTable where
  goType := "balType"
  prefix_ := "BalType"
  consts := ["BalTypeDollar", "BalTypePercent", "BalTypeNumber"]
  names := ["DOLLAR".toList, "PERCENT".toList, "NUMBER".toList]
  first := 1
  last := 3

/-- constants.go 569-637 -/
def enumInv401kSource : EnumTable where
  goType := "inv401kSource"
  prefix_ := "Inv401kSource"
  consts := ["Inv401kSourcePreTax", "Inv401kSourceAfterTax", "Inv401kSourceMatch", "Inv401kSourceProfitSharing", "Inv401kSourceRollover", "Inv401kSourceOtherVest", "Inv401kSourceOtherNonVest"]
  names := ["PRETAX".toList, "AFTERTAX".toList, "MATCH".toList, "PROFITSHARING".toList, "ROLLOVER".toList, "OTHERVEST".toList, "OTHERNONVEST".toList]
  first := 1
  last := 7

/-- constants.go 639-704 -/
def enumSubAcctType : EnumTable where
  goType := "subAcctType"
  prefix_ := "SubAcctType"
  consts := ["SubAcctTypeCash", "SubAcctTypeMargin", "SubAcctTypeShort", "SubAcctTypeOther"]
  names := ["CASH".toList, "MARGIN".toList, "SHORT".toList, "OTHER".toList]
  first := 1
  last := 4

/-- constants.go 706-769 -/
def enumBuyType : EnumTable where
  goType := "buyType"
  prefix_ := "BuyType"
  consts := ["BuyTypeBuy", "BuyTypeBuyToCover"]
  names := ["BUY".toList, "BUYTOCOVER".toList]
  first := 1
  last := 2

/-- constants.go 771-835 -/
def enumOptAction : EnumTable where
  goType := "optAction"
  prefix_ := "OptAction"
  consts := ["OptActionExercise", "OptActionAssign", "OptActionExpire"]
  names := ["EXERCISE".toList, "ASSIGN".toList, "EXPIRE".toList]
  first := 1
  last := 3

/-- constants.go 837-900 -/
def enumTferAction : EnumTable where
  goType := "tferAction"
  prefix_ := "TferAction"
  consts := ["TferActionIn", "TferActionOut"]
  names := ["IN".toList, "OUT".toList]
  first := 1
  last := 2

/-- constants.go 902-965 -/
def enumPosType : EnumTable where
  goType := "posType"
  prefix_ := "PosType"
  consts := ["PosTypeLong", "PosTypeShort"]
  names := ["LONG".toList, "SHORT".toList]
  first := 1
  last := 2

/-- constants.go 967-1030 -/
def enumSecured : EnumTable where
  goType := "secured"
  prefix_ := "Secured"
  consts := ["SecuredNaked", "SecuredCovered"]
  names := ["NAKED".toList, "COVERED".toList]
  first := 1
  last := 2

/-- constants.go 1032-1096 -/
def enumDuration : EnumTable where
  goType := "duration"
  prefix_ := "Duration"
  consts := ["DurationDay", "DurationGoodTilCancel", "DurationImmediate"]
  names := ["DAY".toList, "GOODTILCANCEL".toList, "IMMEDIATE".toList]
  first := 1
  last := 3

/-- constants.go 1098-1162 -/
def enumRestriction : EnumTable where
  goType := "restriction"
  prefix_ := "Restriction"
  consts := ["RestrictionAllOrNone", "RestrictionMinUnits", "RestrictionNone"]
  names := ["ALLORNONE".toList, "MINUNITS".toList, "NONE".toList]
  first := 1
  last := 3

/-- constants.go 1164-1227 -/
def enumUnitType : EnumTable where
  goType := "unitType"
  prefix_ := "UnitType"
  consts := ["UnitTypeShares", "UnitTypeCurrency"]
  names := ["SHARES".toList, "CURRENCY".toList]
  first := 1
  last := 2

/-- constants.go 1229-1292 -/
def enumOptBuyType : EnumTable where
  goType := "optBuyType"
  prefix_ := "OptBuyType"
  consts := ["OptBuyTypeBuyToOpen", "OptBuyTypeBuyToClose"]
  names := ["BUYTOOPEN".toList, "BUYTOCLOSE".toList]
  first := 1
  last := 2

/-- constants.go 1294-1357 -/
def enumSellType : EnumTable where
  goType := "sellType"
  prefix_ := "SellType"
  consts := ["SellTypeSell", "SellTypeSellShort"]
  names := ["SELL".toList, "SELLSHORT".toList]
  first := 1
  last := 2

/-- constants.go 1359-1430 -/
def enumLoanPmtFreq : EnumTable where
  goType := "loanPmtFreq"
  prefix_ := "LoanPmtFreq"
  consts := ["LoanPmtFreqWeekly", "LoanPmtFreqBiweekly", "LoanPmtFreqTwiceMonthly", "LoanPmtFreqMonthly", "LoanPmtFreqFourWeeks", "LoanPmtFreqBiMonthly", "LoanPmtFreqQuarterly", "LoanPmtFreqSemiannually", "LoanPmtFreqAnnually", "LoanPmtFreqOther"]
  names := ["WEEKLY".toList, "BIWEEKLY".toList, "TWICEMONTHLY".toList, "MONTHLY".toList, "FOURWEEKS".toList, "BIMONTHLY".toList, "QUARTERLY".toList, "SEMIANNUALLY".toList, "ANNUALLY".toList, "OTHER".toList]
  first := 1
  last := 10

/-- constants.go 1432-1498 -/
def enumIncomeType : EnumTable where
  goType := "incomeType"
  prefix_ := "IncomeType"
  consts := ["IncomeTypeCGLong", "IncomeTypeCGShort", "IncomeTypeDiv", "IncomeTypeInterest", "IncomeTypeMisc"]
  names := ["CGLONG".toList, "CGSHORT".toList, "DIV".toList, "INTEREST".toList, "MISC".toList]
  first := 1
  last := 5

/-- constants.go 1500-1564 -/
def enumSellReason : EnumTable where
  goType := "sellReason"
  prefix_ := "SellReason"
  consts := ["SellReasonCall", "SellReasonSell", "SellReasonMaturity"]
  names := ["CALL".toList, "SELL".toList, "MATURITY".toList]
  first := 1
  last := 3

/-- constants.go 1566-1629 -/
def enumOptSellType : EnumTable where
  goType := "optSellType"
  prefix_ := "OptSellType"
  consts := ["OptSellTypeSellToClose", "OptSellTypeSellToOpen"]
  names := ["SELLTOCLOSE".toList, "SELLTOOPEN".toList]
  first := 1
  last := 2

/-- constants.go 1631-1696 -/
def enumRelType : EnumTable where
  goType := "relType"
  prefix_ := "RelType"
  consts := ["RelTypeSpread", "RelTypeStraddle", "RelTypeNone", "RelTypeOther"]
  names := ["SPREAD".toList, "STRADDLE".toList, "NONE".toList, "OTHER".toList]
  first := 1
  last := 4

/-- constants.go 1698-1763 -/
def enumCharType : EnumTable where
  goType := "charType"
  prefix_ := "CharType"
  consts := ["CharTypeAlphaOnly", "CharTypeNumericOnly", "CharTypeAlphaOrNumeric", "CharTypeAlphaAndNumeric"]
  names := ["ALPHAONLY".toList, "NUMERICONLY".toList, "ALPHAORNUMERIC".toList, "ALPHAANDNUMERIC".toList]
  first := 1
  last := 4

/-- constants.go 1765-1828 -/
def enumSyncMode : EnumTable where
  goType := "syncMode"
  prefix_ := "SyncMode"
  consts := ["SyncModeFull", "SyncModeLite"]
  names := ["FULL".toList, "LITE".toList]
  first := 1
  last := 2

/-- constants.go 1830-1893 -/
def enumOfxSec : EnumTable where
  goType := "ofxSec"
  prefix_ := "OfxSec"
  consts := ["OfxSecNone", "OfxSecType1"]
  names := ["NONE".toList, "TYPE 1".toList]
  first := 1
  last := 2

/-- constants.go 1895-1958 -/
def enumDebtType : EnumTable where
  goType := "debtType"
  prefix_ := "DebtType"
  consts := ["DebtTypeCoupon", "DebtTypeZero"]
  names := ["COUPON".toList, "ZERO".toList]
  first := 1
  last := 2

/-- constants.go 1960-2025 -/
def enumDebtClass : EnumTable where
  goType := "debtClass"
  prefix_ := "DebtClass"
  consts := ["DebtClassTreasury", "DebtClassMunicipal", "DebtClassCorporate", "DebtClassOther"]
  names := ["TREASURY".toList, "MUNICIPAL".toList, "CORPORATE".toList, "OTHER".toList]
  first := 1
  last := 4

/-- constants.go 2027-2093 -/
def enumCouponFreq : EnumTable where
  goType := "couponFreq"
  prefix_ := "CouponFreq"
  consts := ["CouponFreqMonthly", "CouponFreqQuarterly", "CouponFreqSemiannual", "CouponFreqAnnual", "CouponFreqOther"]
  names := ["MONTHLY".toList, "QUARTERLY".toList, "SEMIANNUAL".toList, "ANNUAL".toList, "OTHER".toList]
  first := 1
  last := 5

/-- constants.go 2095-2160 -/
def enumCallType : EnumTable where
  goType := "callType"
  prefix_ := "CallType"
  consts := ["CallTypeCall", "CallTypePut", "CallTypePrefund", "CallTypeMaturity"]
  names := ["CALL".toList, "PUT".toList, "PREFUND".toList, "MATURITY".toList]
  first := 1
  last := 4

/-- constants.go 2162-2230 -/
def enumAssetClass : EnumTable where
  goType := "assetClass"
  prefix_ := "AssetClass"
  consts := ["AssetClassDomesticBond", "AssetClassIntlBond", "AssetClassLargeStock", "AssetClassSmallStock", "AssetClassIntlStock", "AssetClassMoneyMrkt", "AssetClassOther"]
  names := ["DOMESTICBOND".toList, "INTLBOND".toList, "LARGESTOCK".toList, "SMALLSTOCK".toList, "INTLSTOCK".toList, "MONEYMRKT".toList, "OTHER".toList]
  first := 1
  last := 7

/-- constants.go 2232-2296 -/
def enumMfType : EnumTable where
  goType := "mfType"
  prefix_ := "MfType"
  consts := ["MfTypeOpenEnd", "MfTypeCloseEnd", "MfTypeOther"]
  names := ["OPENEND".toList, "CLOSEEND".toList, "OTHER".toList]
  first := 1
  last := 3

/-- constants.go 2298-2361 -/
def enumOptType : EnumTable where
  goType := "optType"
  prefix_ := "OptType"
  consts := ["OptTypePut", "OptTypeCall"]
  names := ["PUT".toList, "CALL".toList]
  first := 1
  last := 2

/-- constants.go 2363-2428 -/
def enumStockType : EnumTable where
  goType := "stockType"
  prefix_ := "StockType"
  consts := ["StockTypeCommon", "StockTypePreferred", "StockTypeConvertible", "StockTypeOther"]
  names := ["COMMON".toList, "PREFERRED".toList, "CONVERTIBLE".toList, "OTHER".toList]
  first := 1
  last := 4

/-- constants.go 2430-2496 -/
def enumHolderType : EnumTable where
  goType := "holderType"
  prefix_ := "HolderType"
  consts := ["HolderTypeIndividual", "HolderTypeJoint", "HolderTypeCustodial", "HolderTypeTrust", "HolderTypeOther"]
  names := ["INDIVIDUAL".toList, "JOINT".toList, "CUSTODIAL".toList, "TRUST".toList, "OTHER".toList]
  first := 1
  last := 5

/-- constants.go 2498-2563 -/
def enumAcctClassification : EnumTable where
  goType := "acctClassification"
  prefix_ := "AcctClassification"
  consts := ["AcctClassificationPersonal", "AcctClassificationBusiness", "AcctClassificationCorporate", "AcctClassificationOther"]
  names := ["PERSONAL".toList, "BUSINESS".toList, "CORPORATE".toList, "OTHER".toList]
  first := 1
  last := 4

/-- constants.go 2565-2629 -/
def enumSvcStatus : EnumTable where
  goType := "svcStatus"
  prefix_ := "SvcStatus"
  consts := ["SvcStatusAvail", "SvcStatusPend", "SvcStatusActive"]
  names := ["AVAIL".toList, "PEND".toList, "ACTIVE".toList]
  first := 1
  last := 3

/-- constants.go 2631-2703 -/
def enumUsProductType : EnumTable where
  goType := "usProductType"
  prefix_ := "UsProductType"
  consts := ["UsProductType401K", "UsProductType403B", "UsProductTypeIRA", "UsProductTypeKEOGH", "UsProductTypeOther", "UsProductTypeSARSEP", "UsProductTypeSimple", "UsProductTypeNormal", "UsProductTypeTDA", "UsProductTypeTrust", "UsProductTypeUGMA"]
  names := ["401K".toList, "403B".toList, "IRA".toList, "KEOGH".toList, "OTHER".toList, "SARSEP".toList, "SIMPLE".toList, "NORMAL".toList, "TDA".toList, "TRUST".toList, "UGMA".toList]
  first := 1
  last := 11

/-- All 40 enumerations of constants.go, in file order. -/
def allEnums : List EnumTable := [enumOfxVersion, enumAcctType, enumTrnType, enumImageType, enumImageRefType, enumCheckSup, enumCorrectAction, enumBalType, enumInv401kSource, enumSubAcctType, enumBuyType, enumOptAction, enumTferAction, enumPosType, enumSecured, enumDuration, enumRestriction, enumUnitType, enumOptBuyType, enumSellType, enumLoanPmtFreq, enumIncomeType, enumSellReason, enumOptSellType, enumRelType, enumCharType, enumSyncMode, enumOfxSec, enumDebtType, enumDebtClass, enumCouponFreq, enumCallType, enumAssetClass, enumMfType, enumOptType, enumStockType, enumHolderType, enumAcctClassification, enumSvcStatus, enumUsProductType]

end Ofx
